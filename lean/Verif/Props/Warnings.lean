import Verif.Spec.Warnings
import Mathlib.Tactic.Linarith
import Mathlib.Tactic.NormNum
import Mathlib.Tactic.Positivity

/-!
# C105 — warnings about the limits of tables
-/

namespace Obscura

open Spec

variable (U : Units)

/-- C105 (one call). Asking a shell for a response function gives the same value whether or not a warning was printed before. A warning
is printed exactly if the arguments are outside the table and none was printed before; it shows what is outside. -/
theorem C105_call (e : AtomicElectron) (warned : Bool) (r : ℤ) (q E : ℝ) :
    (e.responseWarned U warned r q E).result = e.response U r q E ∧
    (Outside U e r q E ∧ warned = false → (e.responseWarned U warned r q E).printed = [shellWarning U e r q E]) ∧
    (¬ Outside U e r q E ∨ warned = true → (e.responseWarned U warned r q E).printed = []) ∧
    ((e.responseWarned U warned r q E).flag = true ↔ warned = true ∨ Outside U e r q E) := by
  classical
  set k := Real.sqrt (2 * U.mElectron * E) with hk
  by_cases h : 1.000001 * e.qMax < q ∨ 1.000001 * e.kMax < k ∨ k < 0.999999 * e.kMin
  · have hout : Outside U e r q E := by
      unfold Outside MomentumOutside
      rw [← hk]
      tauto
    have hres : e.response U r q E = .ok 0 := by
      unfold AtomicElectron.response
      simp only [← hk]
      rw [if_pos h]
    cases warned
    · have hw : e.responseWarned U false r q E = ⟨true, [shellWarning U e r q E], .ok 0⟩ := by
        unfold AtomicElectron.responseWarned
        simp only [← hk]
        rw [if_pos h]
        unfold shellWarning MomentumOutside
        simp only [← hk, Bool.not_false, if_true]
        by_cases h1 : 1.000001 * e.qMax < q
        · simp [h1]
        · have h2 : 1.000001 * e.kMax < k ∨ k < 0.999999 * e.kMin := by tauto
          simp [h1, h2]
      rw [hw, hres]
      simp [hout]
    · have hw : e.responseWarned U true r q E = ⟨true, [], .ok 0⟩ := by
        unfold AtomicElectron.responseWarned
        simp only [← hk]
        rw [if_pos h]
        simp
      rw [hw, hres]
      simp
  · have hm : ¬ MomentumOutside U e E := by
      unfold MomentumOutside
      rw [← hk]
      tauto
    have hq : ¬ 1.000001 * e.qMax < q := by tauto
    by_cases h1 : r = 1
    · have hout : ¬ Outside U e r q E := by
        unfold Outside
        rintro (h' | h' | ⟨h', -⟩)
        · exact hq h'
        · exact hm h'
        · omega
      unfold AtomicElectron.responseWarned AtomicElectron.response
      simp only [← hk]
      rw [if_neg h, if_neg h, if_pos h1, if_pos h1]
      by_cases h2 : e.qMin < q
      · simp [h2, hout]
      · simp [h2, hout]
    · by_cases h2 : r = 2 ∨ r = 3 ∨ r = 4
      · by_cases h3 : e.qMin < q
        · have hout : ¬ Outside U e r q E := by
            unfold Outside
            rintro (h' | h' | ⟨-, h'⟩)
            · exact hq h'
            · exact hm h'
            · exact absurd h3 (not_lt.2 h')
          unfold AtomicElectron.responseWarned AtomicElectron.response
          simp only [← hk]
          rw [if_neg h, if_neg h, if_neg h1, if_neg h1, if_pos h2, if_pos h2, if_pos h3, if_pos h3]
          simp [hout]
        · have hout : Outside U e r q E := Or.inr (Or.inr ⟨h2, not_lt.1 h3⟩)
          have hw : shellWarning U e r q E = ⟨r, e.name, some (q / U.keV, e.qMin / U.keV, e.qMax / U.keV), none⟩ := by
            unfold shellWarning
            simp [hm]
          unfold AtomicElectron.responseWarned AtomicElectron.response
          simp only [← hk]
          rw [if_neg h, if_neg h, if_neg h1, if_neg h1, if_pos h2, if_pos h2, if_neg h3, if_neg h3]
          cases warned
          · simp [hout, hw]
          · simp
      · have hout : ¬ Outside U e r q E := by
          unfold Outside
          rintro (h' | h' | ⟨h', -⟩)
          · exact hq h'
          · exact hm h'
          · exact h2 h'
        unfold AtomicElectron.responseWarned AtomicElectron.response
        simp only [← hk]
        rw [if_neg h, if_neg h, if_neg h1, if_neg h1, if_neg h2, if_neg h2]
        simp [hout]

private theorem printed_shell (e : AtomicElectron) (b : Bool) (r : ℤ) (q E : ℝ) :
    ∀ w ∈ (e.responseWarned U b r q E).printed, w.shell = e.name := by
  obtain ⟨-, h1, h2, -⟩ := C105_call U e b r q E
  by_cases h : Outside U e r q E ∧ b = false
  · rw [h1 h]
    intro w hw
    rw [List.mem_singleton.1 hw]
    rfl
  · rw [h2 (by cases b <;> simp_all)]
    simp

private theorem once_aux (a : Atom) (hn : (a.electrons.map (·.name)).Nodup) {i : ℕ} {e : AtomicElectron}
    (he : a.electrons[i]? = some e) : ∀ (calls : List Atom.ShellCall), (∀ c ∈ calls, ByReference c) →
    ∀ (flags : List Bool), flags.length = a.electrons.length → ∀ ws vs, a.callShells U calls flags = (ws, .ok vs) →
      ws.filter (fun w => decide (w.shell = e.name)) = if flags[i]? = some true then [] else firstWarning U e i calls
  | [], _, flags, _, ws, vs, h => by
    unfold Atom.callShells at h
    obtain ⟨rfl, -⟩ := Prod.mk.inj h
    simp [firstWarning]
  | .copy n l r q E :: cs, hr, _, _, _, _, _ => (hr _ (List.mem_cons_self ..)).elim
  | .reference j r q E :: cs, hr, flags, hl, ws, vs, h => by
    classical
    unfold Atom.callShells Atom.callShell at h
    dsimp only at h
    rcases hj : a.electrons[j]? with _ | e'
    · simp [hj] at h
    have hjl : j < a.electrons.length := (List.getElem?_eq_some_iff.1 hj).1
    have hjf : j < flags.length := hl ▸ hjl
    have hfj : flags[j]? = some flags[j] := List.getElem?_eq_getElem hjf
    have hil : i < a.electrons.length := (List.getElem?_eq_some_iff.1 he).1
    rw [hj, hfj] at h
    dsimp only at h
    set w := e'.responseWarned U flags[j] r q E with hw
    rcases hv : w.result with x | _ | _ | _
    · rw [hv] at h
      dsimp only at h
      rcases hrec : a.callShells U cs (flags.set j w.flag) with ⟨ws', o⟩
      rw [hrec] at h
      obtain ⟨h1, h2⟩ := Prod.mk.inj h
      obtain ⟨xs, rfl, -⟩ := Outcome.bind_eq_ok.1 h2
      have ih := once_aux a hn he cs (fun c hc => hr c (List.mem_cons_of_mem _ hc)) (flags.set j w.flag) (by simpa using hl) ws' xs hrec
      obtain ⟨-, hp1, hp2, hf⟩ := C105_call U e' flags[j] r q E
      rw [← hw] at hp1 hp2 hf
      rw [← h1, List.filter_append, ih]
      have hfw : firstWarning U e i (.reference j r q E :: cs) =
          if j = i ∧ Outside U e r q E then [shellWarning U e r q E] else firstWarning U e i cs := rfl
      by_cases hij : j = i
      · subst hij
        have hee : e' = e := Option.some.inj (hj.symm.trans he)
        subst hee
        have hset : (flags.set j w.flag)[j]? = some w.flag := by
          rw [List.getElem?_set_self hjf]
        rw [hset, hfj]
        have hall : w.printed.filter (fun w => decide (w.shell = e'.name)) = w.printed :=
          List.filter_eq_self.2 fun x hx => by simpa using printed_shell U e' flags[j] r q E x hx
        rw [hall, hfw]
        by_cases hb : flags[j] = true
        · have := hf.2 (Or.inl hb)
          rw [hp2 (Or.inr hb), this, hb]
          simp
        · have hb' : flags[j] = false := by simpa using hb
          by_cases ho : Outside U e' r q E
          · rw [hp1 ⟨ho, hb'⟩, hf.2 (Or.inr ho), hb']
            simp [ho]
          · have hff : w.flag = false := by
              by_contra hne
              rcases hf.1 (by simpa using hne) with h' | h'
              · exact hb h'
              · exact ho h'
            rw [hp2 (Or.inl ho), hff, hb']
            simp [ho]
      · have hname : e'.name ≠ e.name := by
          intro hne
          apply hij
          have hx := List.getElem?_eq_some_iff.1 hj
          have hy := List.getElem?_eq_some_iff.1 he
          exact (List.Nodup.getElem_inj_iff hn (hi := by simpa using hx.1) (hj := by simpa using hy.1)).1 (by
            simp only [List.getElem_map, hx.2, hy.2, hne])
        have hnil : w.printed.filter (fun w => decide (w.shell = e.name)) = [] :=
          List.filter_eq_nil_iff.2 fun x hx => by
            have := printed_shell U e' flags[j] r q E x hx
            simpa [this] using hname
        rw [hnil, List.getElem?_set_ne hij, hfw]
        simp [hij]
    · rw [hv] at h
      exact absurd (Prod.mk.inj h).2 (by simp)
    · rw [hv] at h
      exact absurd (Prod.mk.inj h).2 (by simp)
    · rw [hv] at h
      exact absurd (Prod.mk.inj h).2 (by simp)

/-- C105 (a history). Of a new atom, whose shells have different names, the response functions are evaluated any number of times, in
any order, for any shells and arguments. Then about each shell there is a warning exactly if one of the calls has left its table, it is
the one for the first such call, and it is not repeated. -/
theorem C105_once_partial (a : Atom) (hn : (a.electrons.map (·.name)).Nodup) (calls : List Atom.ShellCall) (hr : ∀ c ∈ calls, ByReference c)
    {ws vs} (h : a.callShells U calls a.newFlags = (ws, .ok vs)) {i : ℕ} {e : AtomicElectron} (he : a.electrons[i]? = some e) :
    ws.filter (fun w => decide (w.shell = e.name)) = firstWarning U e i calls ∧
    (ws.filter (fun w => decide (w.shell = e.name))).length ≤ 1 := by
  have h1 := once_aux U a hn he calls hr a.newFlags (by simp [Atom.newFlags]) ws vs h
  have h2 : a.newFlags[i]? ≠ some true := by
    unfold Atom.newFlags
    rw [List.getElem?_map, he]
    simp
  rw [if_neg h2] at h1
  refine ⟨h1, ?_⟩
  rw [h1]
  clear h1 h hr
  induction calls with
  | nil => simp [firstWarning]
  | cons c cs ih =>
    cases c with
    | reference j r q E =>
      unfold firstWarning
      split_ifs
      · simp
      · exact ih
    | copy => exact ih

/-- C105 (fails for copies). The shell that `Electron(n, l)` returns is a copy: every evaluation outside the table prints the warning
again, although it says that it will not be repeated. -/
theorem C105_fails_copies (a : Atom) {n l i : ℕ} {e : AtomicElectron} (hi : a.electronIndex n l = some i) (he : a.electrons[i]? = some e)
    {r : ℤ} {q E x : ℝ} (ho : Outside U e r q E) (hx : e.response U r q E = .ok x) (N : ℕ) :
    a.callShells U (List.replicate N (.copy n l r q E)) a.newFlags =
      (List.replicate N (shellWarning U e r q E), .ok (List.replicate N x)) := by
  have hf : a.newFlags[i]? = some false := by
    unfold Atom.newFlags
    rw [List.getElem?_map, he]
    rfl
  obtain ⟨hv, hp, -, -⟩ := C105_call U e false r q E
  induction N with
  | zero => rfl
  | succ N ih =>
    rw [List.replicate_succ, List.replicate_succ, List.replicate_succ]
    unfold Atom.callShells Atom.callShell
    dsimp only
    rw [hi]
    dsimp only
    rw [he, hf]
    dsimp only
    rw [hv, hx, ih, hp ⟨ho, rfl⟩]
    rfl

/-- A shell with the tables of the outermost shell of argon, with a constant response, and an atom with it, for the examples. -/
private noncomputable def exampleShell : AtomicElectron :=
  { name := "Ar_3p", n := 3, l := 1, binding := 16.0824 * U.eV, secondaries := 0, kMin := 0.1 * U.keV, kMax := 100 * U.keV, qMin := 1 * U.keV,
    qMax := 1000 * U.keV, dlogk := 1, dlogq := 1, kGrid := [], qGrid := [], responses := [fun _ _ => 1, fun _ _ => 1, fun _ _ => 1, fun _ _ => 1] }

private noncomputable def exampleShell2 : AtomicElectron := { exampleShell U with name := "Ar_3s", l := 0 }

private noncomputable def exampleAtom : Atom := ⟨⟨some 18, [], "Ar"⟩, [exampleShell U, exampleShell2 U], 19.6 * U.eV⟩

private theorem example_outside (e : AtomicElectron) (he : e.qMax = 1000 * U.keV) (r : ℤ) : Outside U e r (2000 * U.keV) 0 := by
  left
  rw [he]
  have : 0 < U.keV := by unfold Units.keV; have := U.eV_pos; positivity
  linarith

private theorem example_zero (e : AtomicElectron) (he : e.qMax = 1000 * U.keV) (r : ℤ) : e.response U r (2000 * U.keV) 0 = .ok 0 := by
  unfold AtomicElectron.response
  dsimp only
  refine if_pos (Or.inl ?_)
  rw [he]
  have : 0 < U.keV := by unfold Units.keV; have := U.eV_pos; positivity
  linarith

/-- The copies of a shell of an atom print as many warnings as there are calls. -/
example : (exampleAtom U).callShells U (List.replicate 5 (.copy 3 0 1 (2000 * U.keV) 0)) (exampleAtom U).newFlags =
    (List.replicate 5 (shellWarning U (exampleShell2 U) 1 (2000 * U.keV) 0), .ok (List.replicate 5 0)) :=
  C105_fails_copies U (exampleAtom U) (i := 1) (by simp [Atom.electronIndex, exampleAtom, exampleShell, exampleShell2, List.findIdx?_cons]) rfl
    (example_outside U _ rfl 1) (example_zero U _ rfl 1) 5

/-- Three calls for two shells by reference print one warning for each shell. -/
example : ∃ ws vs, (exampleAtom U).callShells U [.reference 0 1 (2000 * U.keV) 0, .reference 1 2 (2000 * U.keV) 0, .reference 0 3 (2000 * U.keV) 0]
      (exampleAtom U).newFlags = (ws, .ok vs) ∧ (ws.filter fun w => decide (w.shell = "Ar_3p")).length = 1 ∧
      (ws.filter fun w => decide (w.shell = "Ar_3s")).length = 1 := by
  have hn : ((exampleAtom U).electrons.map (·.name)).Nodup := by
    simp [exampleAtom, exampleShell, exampleShell2]
  have hc : ∃ ws, (exampleAtom U).callShells U [.reference 0 1 (2000 * U.keV) 0, .reference 1 2 (2000 * U.keV) 0,
      .reference 0 3 (2000 * U.keV) 0] (exampleAtom U).newFlags = (ws, .ok [0, 0, 0]) := by
    have hv : ∀ e : AtomicElectron, e.qMax = 1000 * U.keV → ∀ b r, (e.responseWarned U b r (2000 * U.keV) 0).result = .ok 0 :=
      fun e he b r => (C105_call U e b r _ _).1.trans (example_zero U e he r)
    have h0 := hv (exampleShell U) rfl
    have h1 := hv (exampleShell2 U) rfl
    simp [Atom.callShells, Atom.callShell, exampleAtom, Atom.newFlags, h0, h1, Outcome.bind_ok]
  obtain ⟨ws, hws⟩ := hc
  refine ⟨ws, _, hws, ?_, ?_⟩
  · have := (C105_once_partial U (exampleAtom U) hn _ (by simp [ByReference]) hws (i := 0) (e := exampleShell U) rfl).1
    rw [show (exampleShell U).name = "Ar_3p" from rfl] at this
    rw [this]
    simp [firstWarning, example_outside U (exampleShell U) rfl 1]
  · have := (C105_once_partial U (exampleAtom U) hn _ (by simp [ByReference]) hws (i := 1) (e := exampleShell2 U) rfl).1
    rw [show (exampleShell2 U).name = "Ar_3s" from rfl] at this
    rw [this]
    simp [firstWarning, example_outside U (exampleShell2 U) rfl 2]

/-! ## Crystals -/

/-- C105 (crystals). However often and for whatever crystals and arguments the form factor is evaluated, the values are those without
warnings; in a program there is at most one warning, for the first call that leaves its table by more than a millionth. -/
theorem C105_crystals_partial (calls : List (Crystal × ℝ × ℝ))
    (hc : ∀ c ∈ calls, 0 < c.1.dq ∧ 0 < c.1.qMax ∧ 0 < c.1.dE ∧ 0 < c.1.eMax) :
    (Crystal.formFactorsWarned U calls false).2 = calls.map (fun c => c.1.formFactor c.2.1 c.2.2) ∧
    (Crystal.formFactorsWarned U calls false).1 = firstCrystalWarning U calls ∧
    (Crystal.formFactorsWarned U calls false).1.length ≤ 1 := by
  classical
  have hsilent : ∀ calls : List (Crystal × ℝ × ℝ), (Crystal.formFactorsWarned U calls true).1 = [] ∧
      (Crystal.formFactorsWarned U calls true).2 = calls.map (fun c => c.1.formFactor c.2.1 c.2.2) := by
    intro calls
    induction calls with
    | nil => exact ⟨rfl, rfl⟩
    | cons c cs ih =>
      obtain ⟨c, q, E⟩ := c
      unfold Crystal.formFactorsWarned Crystal.formFactorWarned
      dsimp only
      rw [List.map_cons]
      by_cases h : q < c.dq ∨ c.qMax < q ∨ E < c.dE ∨ c.eMax < E
      · simp [h, ih, Crystal.formFactor]
      · simp [h, ih, Crystal.formFactor]
  induction calls with
  | nil => exact ⟨rfl, rfl, by simp [Crystal.formFactorsWarned]⟩
  | cons c cs ih =>
    obtain ⟨h1, h2, h3, h4⟩ := hc _ (List.mem_cons_self ..)
    obtain ⟨ih1, ih2, ih3⟩ := ih fun c hc' => hc c (List.mem_cons_of_mem _ hc')
    obtain ⟨s1, s2⟩ := hsilent cs
    obtain ⟨c, q, E⟩ := c
    dsimp only at h1 h2 h3 h4
    by_cases ho : ClearlyOutside c q E
    · have h : q < c.dq ∨ c.qMax < q ∨ E < c.dE ∨ c.eMax < E := by
        rcases ho with h | h | h | h
        · left; linarith
        · right; left; linarith
        · right; right; left; linarith
        · right; right; right; linarith
      have hw : c.formFactorWarned U false q E =
          ⟨true, [⟨(q / U.keV, c.dq / U.keV, c.qMax / U.keV), (E / U.eV, c.dE / U.eV, c.eMax / U.eV)⟩], 0⟩ := by
        unfold Crystal.formFactorWarned
        rw [if_pos h]
        exact if_pos ⟨rfl, ho⟩
      have hv : c.formFactor q E = 0 := if_pos h
      unfold Crystal.formFactorsWarned firstCrystalWarning
      rw [hw, List.map_cons, if_pos ho]
      simp [s1, s2, hv]
    · have hw : c.formFactorWarned U false q E = ⟨false, [], c.formFactor q E⟩ := by
        unfold Crystal.formFactorWarned Crystal.formFactor
        by_cases h : q < c.dq ∨ c.qMax < q ∨ E < c.dE ∨ c.eMax < E
        · rw [if_pos h, if_pos h]
          exact if_neg fun h' => ho h'.2
        · rw [if_neg h, if_neg h]
      unfold Crystal.formFactorsWarned firstCrystalWarning
      rw [hw, List.map_cons, if_neg ho]
      simp [ih1, ih2, ih2 ▸ ih3]

/-- C105 (fails for crystals: silent zeros). Arguments that are outside the table of a crystal by less than a millionth give 0 without a
warning, even if none was printed before, whatever the table says at its border. -/
theorem C105_fails_margin (c : Crystal) (h : 0 < c.dq ∧ 0 < c.qMax ∧ 0 < c.dE ∧ 0 < c.eMax) (hq : c.dq ≤ c.qMax) (hE : c.dE ≤ c.eMax) :
    ∃ q E, c.qMax < q ∧ Crystal.formFactorsWarned U [(c, q, E)] false = ([], [0]) ∧
      c.formFactor c.qMax E = c.interpolation c.qMax E := by
  classical
  obtain ⟨h1, h2, h3, h4⟩ := h
  refine ⟨1.0000005 * c.qMax, c.eMax, by linarith, ?_, ?_⟩
  · unfold Crystal.formFactorsWarned Crystal.formFactorWarned Crystal.formFactorsWarned
    have ha : 1.0000005 * c.qMax < c.dq ∨ c.qMax < 1.0000005 * c.qMax ∨ c.eMax < c.dE ∨ c.eMax < c.eMax := by
      right; left; linarith
    have hb : ¬ ((!false) = true ∧ (1.0000005 * c.qMax < 0.999999 * c.dq ∨ 1.000001 * c.qMax < 1.0000005 * c.qMax ∨
        c.eMax < 0.999999 * c.dE ∨ 1.000001 * c.eMax < c.eMax)) := by
      rintro ⟨-, h | h | h | h⟩ <;> linarith
    rw [if_pos ha, if_neg hb]
    rfl
  · unfold Crystal.formFactor
    refine if_neg ?_
    rintro (h | h | h | h) <;> linarith

/-- C105 (fails for crystals: other crystals). The flag is shared: after a warning for one crystal there is none for another one,
however far its table is left, and however often. -/
theorem C105_fails_other_crystal (c c' : Crystal) (h : 0 < c.dq ∧ 0 < c.qMax ∧ 0 < c.dE ∧ 0 < c.eMax)
    (h' : 0 < c'.dq ∧ 0 < c'.qMax ∧ 0 < c'.dE ∧ 0 < c'.eMax) {q E : ℝ} (ho : ClearlyOutside c q E) (N : ℕ) :
    Crystal.formFactorsWarned U ((c, q, E) :: List.replicate N (c', 2 * c'.qMax, 2 * c'.eMax)) false =
      ([⟨(q / U.keV, c.dq / U.keV, c.qMax / U.keV), (E / U.eV, c.dE / U.eV, c.eMax / U.eV)⟩], List.replicate (N + 1) 0) ∧
    ClearlyOutside c' (2 * c'.qMax) (2 * c'.eMax) := by
  classical
  obtain ⟨h1, h2, h3, h4⟩ := h
  obtain ⟨h1', h2', h3', h4'⟩ := h'
  have hout : c.formFactor q E = 0 := by
    refine if_pos ?_
    rcases ho with h | h | h | h
    · left; linarith
    · right; left; linarith
    · right; right; left; linarith
    · right; right; right; linarith
  have hout' : c'.formFactor (2 * c'.qMax) (2 * c'.eMax) = 0 := if_pos (Or.inr (Or.inl (by linarith)))
  obtain ⟨hv, hp, -⟩ := C105_crystals_partial U ((c, q, E) :: List.replicate N (c', 2 * c'.qMax, 2 * c'.eMax)) (by
    intro x hx
    rcases List.mem_cons.1 hx with rfl | hx
    · exact ⟨h1, h2, h3, h4⟩
    · rw [List.eq_of_mem_replicate hx]
      exact ⟨h1', h2', h3', h4'⟩)
  refine ⟨Prod.ext ?_ ?_, Or.inr (Or.inl (by linarith))⟩
  · rw [hp]
    exact if_pos ho
  · rw [hv, List.map_cons, List.map_replicate, hout, hout']
    rfl

/-- The crystals of the program have tables with positive limits. -/
example {P : Interpolator2D} {t : String → List ℝ} {target : String} {c : Crystal} (h : Crystal.make U P t target = .ok c) :
    0 < c.dq ∧ 0 < c.qMax ∧ 0 < c.dE ∧ 0 < c.eMax ∧ c.dq ≤ c.qMax ∧ c.dE ≤ c.eMax := by
  unfold Crystal.make at h
  obtain ⟨x, -, h⟩ := Outcome.bind_eq_ok.1 h
  obtain ⟨y, -, h⟩ := Outcome.bind_eq_ok.1 h
  obtain ⟨z, -, h⟩ := Outcome.bind_eq_ok.1 h
  have h1 := U.eV_pos
  have h2 := mul_pos U.aEM_pos U.mElectron_pos
  rw [← Outcome.ok.inj h]
  refine ⟨?_, ?_, ?_, ?_, ?_, ?_⟩ <;> push_cast <;> nlinarith

end Obscura
