import Verif.Lemmas.Ionization

/-!
# Properties C52 and C66: atoms and their response functions
-/

namespace Obscura

open Spec

variable {U : Units} {P : Interpolator2D} {tables : ResponseTables} {rows : List NuclearRow} {c : List Nucleus} {e : AtomicElectron} {a : Atom}

/-! ## C52 — construction of atoms -/

theorem collect_forall₂ {α β : Type} {f : α → Outcome β} {l : List α} {bs : List β} (h : collect f l = .ok bs) :
    List.Forall₂ (fun x b => f x = .ok b) l bs := by
  induction l generalizing bs with
  | nil => cases h; exact .nil
  | cons x l ih =>
    rw [collect] at h
    obtain ⟨b, hb, h⟩ := Outcome.bind_eq_ok.1 h
    obtain ⟨bs', hbs, h⟩ := Outcome.bind_eq_ok.1 h
    cases h
    exact .cons hb (ih hbs)

theorem collect_of_forall {α β : Type} {f : α → Outcome β} {l : List α} (h : ∀ x ∈ l, ∃ b, f x = .ok b) :
    ∃ bs, collect f l = .ok bs := by
  induction l with
  | nil => exact ⟨[], rfl⟩
  | cons x l ih =>
    obtain ⟨b, hb⟩ := h x (by simp)
    obtain ⟨bs, hbs⟩ := ih fun y hy => h y (by simp [hy])
    exact ⟨b :: bs, by rw [collect, hb, hbs]; rfl⟩

/-- What is known about a shell made from a line of the tables. -/
def ShellFrom (U : Units) (element : String) (kMax : ℝ) (s : Atom.ShellData) (e : AtomicElectron) : Prop :=
  BuiltShell e ∧ e.name = element ++ "_" ++ toString s.n ++ shellNames.getD s.l "" ∧ e.n = s.n ∧ e.l = s.l ∧
    e.binding = s.energy * U.eV ∧ e.secondaries = s.secondaries ∧ e.kMin = 0.1 * U.keV ∧ e.kMax = kMax ∧ e.qMin = 1 * U.keV ∧
    e.qMax = 1000 * U.keV

theorem shells_eq {element : String} {kMax : ℝ} {data : List Atom.ShellData} {es : List AtomicElectron} (hk : 0.1 * U.keV < kMax)
    (h : Atom.shells U P tables element kMax data = .ok es) : List.Forall₂ (ShellFrom U element kMax) data es.reverse := by
  unfold Atom.shells at h
  obtain ⟨es', h1, h2⟩ := Outcome.bind_eq_ok.1 h
  cases h2
  rw [List.reverse_reverse]
  refine (collect_forall₂ h1).imp fun s e hse => ?_
  have hkv := U.keV_pos
  obtain ⟨letter, rs, hl, hn, _, _, h3, h4, h5, h6, h7, h8, h9, h10, _⟩ := AtomicElectron.make_eq hse
  refine ⟨⟨P, tables, element, s.n, s.l, _, _, _, _, _, _, by positivity, hk, by positivity, by linarith, hse⟩, ?_, h3, h4, h5, h6, h7, h8,
    h9, h10⟩
  rw [hn]
  simp [hl]

/-- The list of shells of an atom: names, binding energies, numbers of secondary electrons. -/
theorem shells_list {element : String} {kMax : ℝ} {data : List Atom.ShellData} {es : List AtomicElectron}
    (h : List.Forall₂ (ShellFrom U element kMax) data es.reverse) :
    es.map (fun e => (e.name, e.binding, e.secondaries)) =
      (data.map fun s => (element ++ "_" ++ toString s.n ++ shellNames.getD s.l "", s.energy * U.eV, s.secondaries)).reverse := by
  have key : ∀ {data : List Atom.ShellData} {l : List AtomicElectron}, List.Forall₂ (ShellFrom U element kMax) data l →
      l.map (fun e => (e.name, e.binding, e.secondaries)) =
        data.map fun s => (element ++ "_" ++ toString s.n ++ shellNames.getD s.l "", s.energy * U.eV, s.secondaries) := by
    intro data l h
    induction h with
    | nil => rfl
    | cons h1 _ ih =>
      rw [List.map_cons, List.map_cons, ih, h1.2.1, h1.2.2.2.2.1, h1.2.2.2.2.2.1]
  rw [← key h, List.map_reverse, List.reverse_reverse]

/-- What the constructor `Atom(name)` builds. -/
theorem atom_make_eq {file : Option (List NuclearRow)} {name : String} {c' : List Nucleus}
    (h : Atom.make U P tables file c name = .ok (c', a)) :
    (∃ n, getNucleusByName U file c name = .ok (c', n) ∧ a.nucleus = n) ∧
    (((name = "Xe" ∨ name = "Xenon") ∧ a.W = 13.8 * U.eV ∧
        List.Forall₂ (ShellFrom U "Xe" (500 * U.keV)) Atom.xenonShells a.electrons.reverse) ∨
      ((name = "Ar" ∨ name = "Argon") ∧ a.W = 19.6 * U.eV ∧
        List.Forall₂ (ShellFrom U "Ar" (100 * U.keV)) Atom.argonShells a.electrons.reverse)) := by
  have hkv := U.keV_pos
  unfold Atom.make at h
  obtain ⟨⟨c1, n⟩, h1, h⟩ := Outcome.bind_eq_ok.1 h
  dsimp only at h
  split_ifs at h with h2 h3
  · obtain ⟨es, h4, h⟩ := Outcome.bind_eq_ok.1 h
    cases h
    exact ⟨⟨n, h1, rfl⟩, .inl ⟨h2, rfl, shells_eq (by linarith) h4⟩⟩
  · obtain ⟨es, h4, h⟩ := Outcome.bind_eq_ok.1 h
    cases h
    exact ⟨⟨n, h1, rfl⟩, .inr ⟨h3, rfl, shells_eq (by linarith) h4⟩⟩

theorem shells_ok {element : String} {kMax : ℝ} {data : List Atom.ShellData} (hl : ∀ s ∈ data, s.l < 5)
    (ht : ∀ s ∈ data, HasTables tables (element ++ "_" ++ toString s.n ++ shellNames.getD s.l "")) :
    ∃ es, Atom.shells U P tables element kMax data = .ok es := by
  unfold Atom.shells
  obtain ⟨es, hes⟩ := collect_of_forall (f := fun s : Atom.ShellData => AtomicElectron.make P tables element s.n s.l (s.energy * U.eV)
    (0.1 * U.keV) kMax (1 * U.keV) (1000 * U.keV) s.secondaries) (l := data) fun s hs => by
    refine AtomicElectron.make_ok (letter := shellNames.getD s.l "") ?_ (ht s hs)
    have := hl s hs
    rw [List.getD_eq_getElem?_getD, List.getElem?_eq_getElem (by simpa [shellNames] using this)]
    simp
  rw [hes]
  exact ⟨_, rfl⟩

theorem xenonShells_list : (Atom.xenonShells.map fun s => ("Xe" ++ "_" ++ toString s.n ++ shellNames.getD s.l "", s.energy * U.eV,
    s.secondaries)).reverse = xenon.map fun s => (s.1, s.2.1 * U.eV, s.2.2) := by
  simp only [Atom.xenonShells, xenon, List.map_cons, List.map_nil, List.reverse_cons, List.reverse_nil, List.nil_append,
    List.cons_append]
  rfl

theorem argonShells_list : (Atom.argonShells.map fun s => ("Ar" ++ "_" ++ toString s.n ++ shellNames.getD s.l "", s.energy * U.eV,
    s.secondaries)).reverse = argon.map fun s => (s.1, s.2.1 * U.eV, s.2.2) := by
  simp only [Atom.argonShells, argon, List.map_cons, List.map_nil, List.reverse_cons, List.reverse_nil, List.nil_append,
    List.cons_append]
  rfl

/-- C52 (guarded): with complete data `Atom("Xe")` and `Atom("Ar")` succeed whatever was looked up before, and carry the nuclei, shells
and work functions of xenon and argon. -/
theorem C52_short_names_partial (hw : WellFormed rows) (hc : CacheReachable U (some rows) c) :
    ((∀ s ∈ xenon, HasTables tables s.1) → ∃ c' a, Atom.make U P tables (some rows) c "Xe" = .ok (c', a) ∧
      a.nucleus = element U rows 54 ∧ a.W = 13.8 * U.eV ∧
      a.electrons.map (fun e => (e.name, e.binding, e.secondaries)) = xenon.map fun s => (s.1, s.2.1 * U.eV, s.2.2)) ∧
    ((∀ s ∈ argon, HasTables tables s.1) → ∃ c' a, Atom.make U P tables (some rows) c "Ar" = .ok (c', a) ∧
      a.nucleus = element U rows 18 ∧ a.W = 19.6 * U.eV ∧
      a.electrons.map (fun e => (e.name, e.binding, e.secondaries)) = argon.map fun s => (s.1, s.2.1 * U.eV, s.2.2)) := by
  have hkv := U.keV_pos
  constructor
  · intro ht
    obtain ⟨c', hn⟩ := (C51_get_nucleus_by_name (U := U) hw hc "Xe").1 54 (by norm_num) (by norm_num) rfl
    obtain ⟨es, hes⟩ := shells_ok (U := U) (P := P) (tables := tables) (element := "Xe") (kMax := 500 * U.keV) (data := Atom.xenonShells)
      (by simp [Atom.xenonShells]) fun s hs => by
        have : ("Xe" ++ "_" ++ toString s.n ++ shellNames.getD s.l "", s.energy * U.eV, s.secondaries) ∈
            (xenon.map fun s => (s.1, s.2.1 * U.eV, s.2.2)) := by
          rw [← xenonShells_list, List.mem_reverse]
          exact List.mem_map.2 ⟨s, hs, rfl⟩
        obtain ⟨s', hs', he⟩ := List.mem_map.1 this
        have := ht s' hs'
        rwa [(Prod.ext_iff.1 he).1] at this
    refine ⟨c', { nucleus := element U rows 54, electrons := es, W := 13.8 * U.eV }, ?_, rfl, rfl, ?_⟩
    · unfold Atom.make
      rw [hn, Outcome.bind_ok]
      dsimp only
      rw [if_pos (.inl rfl), hes]
      rfl
    · rw [shells_list (shells_eq (by linarith) hes), xenonShells_list]
  · intro ht
    obtain ⟨c', hn⟩ := (C51_get_nucleus_by_name (U := U) hw hc "Ar").1 18 (by norm_num) (by norm_num) rfl
    obtain ⟨es, hes⟩ := shells_ok (U := U) (P := P) (tables := tables) (element := "Ar") (kMax := 100 * U.keV) (data := Atom.argonShells)
      (by simp [Atom.argonShells]) fun s hs => by
        have : ("Ar" ++ "_" ++ toString s.n ++ shellNames.getD s.l "", s.energy * U.eV, s.secondaries) ∈
            (argon.map fun s => (s.1, s.2.1 * U.eV, s.2.2)) := by
          rw [← argonShells_list, List.mem_reverse]
          exact List.mem_map.2 ⟨s, hs, rfl⟩
        obtain ⟨s', hs', he⟩ := List.mem_map.1 this
        have := ht s' hs'
        rwa [(Prod.ext_iff.1 he).1] at this
    refine ⟨c', { nucleus := element U rows 18, electrons := es, W := 19.6 * U.eV }, ?_, rfl, rfl, ?_⟩
    · unfold Atom.make
      rw [hn, Outcome.bind_ok]
      dsimp only
      rw [if_neg (by decide), if_pos (.inl rfl), hes]
      rfl
    · rw [shells_list (shells_eq (by linarith) hes), argonShells_list]

/-- C52 fails for the long names the constructor advertises: the nucleus is looked up by its symbol first, and the program ends. -/
theorem C52_fails_long_names (hw : WellFormed rows) (hc : CacheReachable U (some rows) c) :
    Atom.make U P tables (some rows) c "Xenon" = .exit ∧ Atom.make U P tables (some rows) c "Argon" = .exit := by
  have h : ∀ name ∈ ["Xenon", "Argon"], ∀ Z, 1 ≤ Z → Z ≤ 92 → nucleusNames.getD (Z - 1) "" ≠ name := by
    intro name hn Z h1 h2
    have h3 : ∀ i < 92, nucleusNames.getD i "" ∉ ["Xenon", "Argon"] := by decide
    intro he
    exact h3 (Z - 1) (by omega) (he ▸ hn)
  constructor
  · unfold Atom.make
    rw [(C51_get_nucleus_by_name (U := U) hw hc "Xenon").2 (h _ (by simp))]
    rfl
  · unfold Atom.make
    rw [(C51_get_nucleus_by_name (U := U) hw hc "Argon").2 (h _ (by simp))]
    rfl

/-- C52 (everything else): no other name gives an atom. -/
theorem C52_other_names {file : Option (List NuclearRow)} {name : String} (h1 : name ≠ "Xe") (h2 : name ≠ "Ar")
    (hw : WellFormed rows) (hf : file = some rows) (hc : CacheReachable U (some rows) c) :
    Atom.make U P tables file c name = .exit := by
  subst hf
  by_cases hx : name = "Xenon"
  · subst hx; exact (C52_fails_long_names hw hc).1
  by_cases ha : name = "Argon"
  · subst ha; exact (C52_fails_long_names hw hc).2
  unfold Atom.make
  by_cases hn : ∃ Z, 1 ≤ Z ∧ Z ≤ 92 ∧ nucleusNames.getD (Z - 1) "" = name
  · obtain ⟨Z, hz1, hz2, hz⟩ := hn
    obtain ⟨c', hg⟩ := (C51_get_nucleus_by_name (U := U) hw hc name).1 Z hz1 hz2 hz
    rw [hg, Outcome.bind_ok]
    dsimp only
    rw [if_neg (by simp [h1, hx]), if_neg (by simp [h2, ha])]
  · rw [(C51_get_nucleus_by_name (U := U) hw hc name).2 fun Z hz1 hz2 hz => hn ⟨Z, hz1, hz2, hz⟩]
    rfl

/-- C52 (missing data): without the table of some response of the first shell that is constructed the program ends. -/
theorem C52_missing_table (hw : WellFormed rows) (hc : CacheReachable U (some rows) c) (h : tables "Xe_1s_1" = none) :
    Atom.make U P tables (some rows) c "Xe" = .exit := by
  obtain ⟨c', hn⟩ := (C51_get_nucleus_by_name (U := U) hw hc "Xe").1 54 (by norm_num) (by norm_num) rfl
  unfold Atom.make
  rw [hn, Outcome.bind_ok]
  dsimp only
  rw [if_pos (.inl rfl)]
  unfold Atom.shells Atom.xenonShells
  rw [collect]
  unfold AtomicElectron.make
  have h1 : vecGet shellNames 0 = .ok "s" := rfl
  dsimp only
  rw [h1, Outcome.bind_ok]
  have h2 : "Xe" ++ "_" ++ toString 1 ++ "s" ++ "_" ++ toString 1 = "Xe_1s_1" := by decide
  rw [collect]
  unfold AtomicElectron.importResponse
  rw [h2, h]
  rfl

/-- Non-vacuity: the shipped nuclear data and tables of ones. -/
theorem sampleAtoms (U : Units) (P : Interpolator2D) : ∃ c₁ xe c₂ ar,
    Atom.make U P (fun _ => some [[1, 1], [1, 1]]) (some shippedTable) [] "Xe" = .ok (c₁, xe) ∧
    xe.nucleus = element U shippedTable 54 ∧
    Atom.make U P (fun _ => some [[1, 1], [1, 1]]) (some shippedTable) [] "Ar" = .ok (c₂, ar) ∧
    ar.nucleus = element U shippedTable 18 := by
  have ht : ∀ s, HasTables (fun _ => some [[1, 1], [1, 1]]) s := fun s r _ => ⟨_, _, rfl, by simp, rfl, by simp⟩
  obtain ⟨h1, h2⟩ := C52_short_names_partial (U := U) (P := P) (tables := fun _ => some [[1, 1], [1, 1]]) (C51_shipped_table (U := U)).1 .start
  obtain ⟨c₁, xe, a1, a2, _⟩ := h1 fun s _ => ht s.1
  obtain ⟨c₂, ar, b1, b2, _⟩ := h2 fun s _ => ht s.1
  exact ⟨c₁, xe, c₂, ar, a1, a2, b1, b2⟩

/-- C52 (shells): `Electron(n, l)` returns the first shell with these quantum numbers, and ends the program if there is none. -/
theorem C52_electron (a : Atom) (n l : ℕ) :
    (∀ e, a.electron n l = .ok e → e ∈ a.electrons ∧ e.n = n ∧ e.l = l) ∧
    ((∃ e ∈ a.electrons, e.n = n ∧ e.l = l) → ∃ e, a.electron n l = .ok e) ∧
    ((∀ e ∈ a.electrons, ¬(e.n = n ∧ e.l = l)) → a.electron n l = .exit) := by
  unfold Atom.electron
  refine ⟨fun e he => ?_, fun ⟨e, he, h⟩ => ?_, fun h => ?_⟩
  · split at he
    · rename_i x hx
      cases he
      exact ⟨List.mem_of_find?_eq_some hx, by simpa using List.find?_some hx⟩
    · cases he
  · cases hf : a.electrons.find? (fun e => decide (e.n = n ∧ e.l = l)) with
    | some x => exact ⟨x, rfl⟩
    | none =>
      have := List.find?_eq_none.1 hf e he
      simp [h] at this
  · rw [List.find?_eq_none.2 fun e he => by simpa using h e he]

/-- A fold for the smallest entry. -/
theorem foldl_min_spec {α : Type} (f : α → ℝ) (l : List α) (b : ℝ) :
    (l.foldl (fun (b : ℝ) x => if f x < b then f x else b) b ≤ b) ∧
    (∀ x ∈ l, l.foldl (fun (b : ℝ) x => if f x < b then f x else b) b ≤ f x) ∧
    (l.foldl (fun (b : ℝ) x => if f x < b then f x else b) b = b ∨
      ∃ x ∈ l, l.foldl (fun (b : ℝ) x => if f x < b then f x else b) b = f x) := by
  induction l generalizing b with
  | nil => simp
  | cons y l ih =>
    rw [List.foldl_cons]
    obtain ⟨h1, h2, h3⟩ := ih (if f y < b then f y else b)
    refine ⟨h1.trans ?_, ?_, ?_⟩
    · split_ifs with h
      · exact h.le
      · exact le_rfl
    · intro x hx
      rcases List.mem_cons.1 hx with rfl | hx
      · refine h1.trans ?_
        split_ifs with h
        · exact le_rfl
        · exact not_lt.1 h
      · exact h2 x hx
    · rcases h3 with h3 | ⟨x, hx, h3⟩
      · rw [h3]
        split_ifs with h
        · exact .inr ⟨y, by simp, rfl⟩
        · exact .inl rfl
      · exact .inr ⟨x, by simp [hx], h3⟩

/-- C52 (lowest energy): `Lowest_Binding_Energy` is the smallest binding energy of the atom, provided that one is below 1 (GeV), the
starting value of the search. -/
theorem C52_lowest_energy (a : Atom) (h : ∃ e ∈ a.electrons, |e.binding| < 1) :
    IsLeast {b | ∃ e ∈ a.electrons, b = |e.binding|} a.lowestBindingEnergy := by
  obtain ⟨e, he, h⟩ := h
  unfold Atom.lowestBindingEnergy
  obtain ⟨h1, h2, h3⟩ := foldl_min_spec (fun e : AtomicElectron => |e.binding|) a.electrons 1
  constructor
  · rcases h3 with h3 | ⟨x, hx, h3⟩
    · have := h2 e he
      rw [h3] at this
      linarith
    · exact ⟨x, hx, by convert h3⟩
  · rintro b ⟨x, hx, rfl⟩
    convert h2 x hx

theorem lowest_le (a : Atom) (he : e ∈ a.electrons) : a.lowestBindingEnergy ≤ |e.binding| := by
  unfold Atom.lowestBindingEnergy
  have := (foldl_min_spec (fun e : AtomicElectron => |e.binding|) a.electrons 1).2.1 e he
  convert this

/-- The shells of an atom made by the constructor. -/
theorem atom_electrons (ha : BuiltAtom U a) :
    (∀ e ∈ a.electrons, BuiltShell e ∧ e.qMin = 1 * U.keV ∧ e.qMax = 1000 * U.keV ∧ e.kMin = 0.1 * U.keV) ∧
    ((a.W = 13.8 * U.eV ∧ a.electrons.map (fun e => (e.name, e.binding, e.secondaries)) = xenon.map fun s => (s.1, s.2.1 * U.eV, s.2.2)) ∨
     (a.W = 19.6 * U.eV ∧ a.electrons.map (fun e => (e.name, e.binding, e.secondaries)) = argon.map fun s => (s.1, s.2.1 * U.eV, s.2.2))) := by
  obtain ⟨P, t, f, c, n, c', h⟩ := ha
  have hall : ∀ {el k data}, List.Forall₂ (ShellFrom U el k) data a.electrons.reverse →
      ∀ e ∈ a.electrons, BuiltShell e ∧ e.qMin = 1 * U.keV ∧ e.qMax = 1000 * U.keV ∧ e.kMin = 0.1 * U.keV := by
    intro el k data h e he
    have he : e ∈ a.electrons.reverse := List.mem_reverse.2 he
    generalize a.electrons.reverse = l at *
    induction h with
    | nil => cases he
    | cons h1 _ ih =>
      rcases List.mem_cons.1 he with rfl | he
      · exact ⟨h1.1, h1.2.2.2.2.2.2.2.2.1, h1.2.2.2.2.2.2.2.2.2, h1.2.2.2.2.2.2.1⟩
      · exact ih he
  obtain ⟨_, ⟨_, hW, h2⟩ | ⟨_, hW, h2⟩⟩ := atom_make_eq h
  · exact ⟨hall h2, .inl ⟨hW, by rw [shells_list h2, xenonShells_list]⟩⟩
  · exact ⟨hall h2, .inr ⟨hW, by rw [shells_list h2, argonShells_list]⟩⟩

/-- The electron momenta that are tabulated: up to 500 keV for xenon and 100 keV for argon. -/
theorem atom_momenta (ha : BuiltAtom U a) :
    (a.W = 13.8 * U.eV ∧ ∀ e ∈ a.electrons, e.kMax = 500 * U.keV) ∨ (a.W = 19.6 * U.eV ∧ ∀ e ∈ a.electrons, e.kMax = 100 * U.keV) := by
  obtain ⟨P, t, f, c, n, c', h⟩ := ha
  have hall : ∀ {el k data}, List.Forall₂ (ShellFrom U el k) data a.electrons.reverse → ∀ e ∈ a.electrons, e.kMax = k := by
    intro el k data h e he
    have he : e ∈ a.electrons.reverse := List.mem_reverse.2 he
    generalize a.electrons.reverse = l at *
    induction h with
    | nil => cases he
    | cons h1 _ ih =>
      rcases List.mem_cons.1 he with rfl | he
      · exact h1.2.2.2.2.2.2.2.1
      · exact ih he
  obtain ⟨_, ⟨_, hW, h2⟩ | ⟨_, hW, h2⟩⟩ := atom_make_eq h
  · exact .inl ⟨hW, hall h2⟩
  · exact .inr ⟨hW, hall h2⟩

/-- The outermost shell is the most weakly bound one, and the energy of the secondary electrons does not reach down to it. -/
theorem atom_bindings (ha : BuiltAtom U a) : ∃ B₀ : ℝ, 12 * U.eV ≤ B₀ ∧ B₀ ≤ 17 * U.eV ∧ (∃ e ∈ a.electrons, e.binding = B₀) ∧
    0 < a.W ∧ a.W ≤ 20 * U.eV ∧
    (∀ e ∈ a.electrons, B₀ ≤ e.binding - e.secondaries * a.W ∧ B₀ ≤ e.binding ∧ e.secondaries ≤ 6 ∧ e.binding ≤ 40000 * U.eV) := by
  have hev := U.eV_pos
  obtain ⟨_, ⟨hW, h⟩ | ⟨hW, h⟩⟩ := atom_electrons ha
  · refine ⟨12.4433 * U.eV, by linarith, by linarith, ?_, by rw [hW]; positivity, by rw [hW]; linarith, fun e he => ?_⟩
    · have : ("Xe_5p", (12.4433 : ℝ) * U.eV, 0) ∈ a.electrons.map (fun e => (e.name, e.binding, e.secondaries)) := by
        rw [h]; exact List.mem_map.2 ⟨("Xe_5p", 12.4433, 0), by simp [xenon], rfl⟩
      obtain ⟨e, he, h⟩ := List.mem_map.1 this
      simp only [Prod.mk.injEq] at h
      exact ⟨e, he, h.2.1⟩
    · have : (e.name, e.binding, e.secondaries) ∈ xenon.map fun s => (s.1, s.2.1 * U.eV, s.2.2) := by
        rw [← h]; exact List.mem_map.2 ⟨e, he, rfl⟩
      obtain ⟨s, hs, h⟩ := List.mem_map.1 this
      simp only [Prod.mk.injEq] at h
      obtain ⟨_, h2, h3⟩ := h
      rw [← h2, ← h3, hW]
      simp only [xenon, List.mem_cons, List.not_mem_nil, or_false] at hs
      rcases hs with rfl | rfl | rfl | rfl | rfl | rfl | rfl | rfl | rfl | rfl | rfl <;>
        refine ⟨?_, ?_, by norm_num, ?_⟩ <;> norm_num <;> nlinarith
  · refine ⟨16.0824 * U.eV, by linarith, by linarith, ?_, by rw [hW]; positivity, by rw [hW]; linarith, fun e he => ?_⟩
    · have : ("Ar_3p", (16.0824 : ℝ) * U.eV, 0) ∈ a.electrons.map (fun e => (e.name, e.binding, e.secondaries)) := by
        rw [h]; exact List.mem_map.2 ⟨("Ar_3p", 16.0824, 0), by simp [argon], rfl⟩
      obtain ⟨e, he, h⟩ := List.mem_map.1 this
      simp only [Prod.mk.injEq] at h
      exact ⟨e, he, h.2.1⟩
    · have : (e.name, e.binding, e.secondaries) ∈ argon.map fun s => (s.1, s.2.1 * U.eV, s.2.2) := by
        rw [← h]; exact List.mem_map.2 ⟨e, he, rfl⟩
      obtain ⟨s, hs, h⟩ := List.mem_map.1 this
      simp only [Prod.mk.injEq] at h
      obtain ⟨_, h2, h3⟩ := h
      rw [← h2, ← h3, hW]
      simp only [argon, List.mem_cons, List.not_mem_nil, or_false] at hs
      rcases hs with rfl | rfl | rfl | rfl | rfl <;>
        refine ⟨?_, ?_, by norm_num, ?_⟩ <;> norm_num <;> nlinarith

/-- C52 (lowest energies of the two atoms): 12.4433 eV for xenon and 16.0824 eV for argon, in the units of the library (GeV = 1). -/
theorem C52_lowest_energies (hGeV : U.GeV = 1) (ha : BuiltAtom U a) :
    ∃ e, a.electrons.head? = some e ∧ a.lowestBindingEnergy = e.binding ∧
      (a.lowestBindingEnergy = 12.4433 * U.eV ∨ a.lowestBindingEnergy = 16.0824 * U.eV) := by
  have hev := U.eV_pos
  have h1 : U.eV = 1 / 10 ^ 9 := by unfold Units.GeV at hGeV; linarith
  obtain ⟨B₀, h2, h3, ⟨e₀, he₀, hB⟩, _, _, hall⟩ := atom_bindings ha
  have hleast := C52_lowest_energy a ⟨e₀, he₀, by rw [hB, abs_of_nonneg (by linarith)]; rw [h1] at h3; linarith⟩
  have hmin : ∀ e ∈ a.electrons, (∀ e' ∈ a.electrons, e.binding ≤ e'.binding) → a.lowestBindingEnergy = e.binding := by
    intro e he hle
    refine hleast.unique ⟨⟨e, he, ?_⟩, ?_⟩
    · rw [abs_of_nonneg]; have := (hall e he).2.1; linarith
    · rintro b ⟨e', he', rfl⟩
      exact (hle e' he').trans (le_abs_self _)
  obtain ⟨_, ⟨_, h⟩ | ⟨_, h⟩⟩ := atom_electrons ha
  · cases hl : a.electrons with
    | nil => rw [hl] at he₀; cases he₀
    | cons e l =>
      have hb : e.binding = 12.4433 * U.eV := by
        rw [hl] at h
        simp only [xenon, List.map_cons, List.cons.injEq, Prod.mk.injEq] at h
        exact h.1.2.1
      have := hmin e (by rw [hl]; simp) fun e' he' => by
        have : (e'.name, e'.binding, e'.secondaries) ∈ xenon.map fun s => (s.1, s.2.1 * U.eV, s.2.2) := by
          rw [← h]; exact List.mem_map.2 ⟨e', he', rfl⟩
        obtain ⟨s, hs, h⟩ := List.mem_map.1 this
        simp only [Prod.mk.injEq] at h
        rw [← h.2.1, hb]
        simp only [xenon, List.mem_cons, List.not_mem_nil, or_false] at hs
        rcases hs with rfl | rfl | rfl | rfl | rfl | rfl | rfl | rfl | rfl | rfl | rfl <;> norm_num <;> nlinarith
      exact ⟨e, rfl, this, .inl (this.trans hb)⟩
  · cases hl : a.electrons with
    | nil => rw [hl] at he₀; cases he₀
    | cons e l =>
      have hb : e.binding = 16.0824 * U.eV := by
        rw [hl] at h
        simp only [argon, List.map_cons, List.cons.injEq, Prod.mk.injEq] at h
        exact h.1.2.1
      have := hmin e (by rw [hl]; simp) fun e' he' => by
        have : (e'.name, e'.binding, e'.secondaries) ∈ argon.map fun s => (s.1, s.2.1 * U.eV, s.2.2) := by
          rw [← h]; exact List.mem_map.2 ⟨e', he', rfl⟩
        obtain ⟨s, hs, h⟩ := List.mem_map.1 this
        simp only [Prod.mk.injEq] at h
        rw [← h.2.1, hb]
        simp only [argon, List.mem_cons, List.not_mem_nil, or_false] at hs
        rcases hs with rfl | rfl | rfl | rfl | rfl <;> norm_num <;> nlinarith
      exact ⟨e, rfl, this, .inr (this.trans hb)⟩

/-- C52 (custom atoms): `Atom(z, w, shells)` uses exactly the given shells and work function with the nucleus of charge `z`, and ends the
program if there is no such nucleus. -/
theorem C52_custom (hw : WellFormed rows) (hc : CacheReachable U (some rows) c) (z : ℕ) (w : ℝ) (es : List AtomicElectron) :
    (1 ≤ z ∧ z ≤ 92 → ∃ c', Atom.ofShells U (some rows) c z w es = .ok (c', { nucleus := element U rows z, electrons := es, W := w })) ∧
    (¬(1 ≤ z ∧ z ≤ 92) → Atom.ofShells U (some rows) c z w es = .exit) := by
  obtain ⟨h1, h2⟩ := C51_get_nucleus (U := U) hw hc z
  constructor
  · intro h
    obtain ⟨c', hg⟩ := h1 h
    refine ⟨c', ?_⟩
    unfold Atom.ofShells
    rw [hg]; rfl
  · intro h
    unfold Atom.ofShells
    rw [h2 h]; rfl

/-! ## C66 — response functions -/

/-- C66 (definedness): for a constructed shell the four response functions are defined at every momentum and energy. -/
theorem C66_defined (hb : BuiltShell e) {r : ℤ} (hr : r ∈ [1, 2, 3, 4]) (q E : ℝ) : ∃ x, e.response U r q E = .ok x := by
  have hl := AtomicElectron.responses_length hb
  have hg : ∀ i < 4, ∃ f, vecGet e.responses i = .ok f := fun i hi => ⟨_, vecGet_lt (by omega)⟩
  unfold AtomicElectron.response
  dsimp only
  simp only [List.mem_cons, List.not_mem_nil, or_false] at hr
  obtain ⟨f0, h0⟩ := hg 0 (by norm_num)
  obtain ⟨f1, h1⟩ := hg 1 (by norm_num)
  obtain ⟨f2, h2⟩ := hg 2 (by norm_num)
  obtain ⟨f3, h3⟩ := hg 3 (by norm_num)
  rcases hr with rfl | rfl | rfl | rfl <;> split_ifs <;> simp_all

/-- C66: the ionization form factor is the first response function. -/
theorem C66_form_factor (hb : BuiltShell e) (q E : ℝ) : e.response U 1 q E = .ok (e.ionizationFormFactor U q E) := by
  obtain ⟨x, hx⟩ := C66_defined (U := U) hb (r := 1) (by simp) q E
  unfold AtomicElectron.ionizationFormFactor
  rw [hx]; rfl

/-- C66 (outside the tables): beyond the tabulated momenta (by more than a millionth) there is no response, whatever the number of the
response function. -/
theorem C66_outside (r : ℤ) {q E : ℝ}
    (h : 1.000001 * e.qMax < q ∨ 1.000001 * e.kMax < Real.sqrt (2 * U.mElectron * E) ∨ Real.sqrt (2 * U.mElectron * E) < 0.999999 * e.kMin) :
    e.response U r q E = .ok 0 := by
  unfold AtomicElectron.response
  dsimp only
  rw [if_pos h]

/-- C66 (invalid number): inside the tables every other number of a response function ends the program. -/
theorem C66_invalid {r : ℤ} (hr : r ∉ [1, 2, 3, 4]) {q E : ℝ}
    (h : q ≤ 1.000001 * e.qMax ∧ 0.999999 * e.kMin ≤ Real.sqrt (2 * U.mElectron * E) ∧ Real.sqrt (2 * U.mElectron * E) ≤ 1.000001 * e.kMax) :
    e.response U r q E = .exit := by
  unfold AtomicElectron.response
  dsimp only
  simp only [List.mem_cons, List.not_mem_nil, or_false] at hr
  rw [if_neg (by push Not; tauto), if_neg (by tauto), if_neg (by tauto)]

/-- C66 (small momenta): below the table the first response function continues as the square of the momentum (the dipole
approximation), without a jump; the other ones vanish. -/
theorem C66_small_momenta (hb : BuiltShell e) {q E : ℝ} (hq : q ≤ e.qMin)
    (hk : 0.999999 * e.kMin ≤ Real.sqrt (2 * U.mElectron * E) ∧ Real.sqrt (2 * U.mElectron * E) ≤ 1.000001 * e.kMax) :
    e.ionizationFormFactor U q E = (q / e.qMin) ^ 2 * e.ionizationFormFactor U e.qMin E ∧
    ∀ r ∈ [2, 3, 4], e.response U r q E = .ok 0 := by
  have hl := AtomicElectron.responses_length hb
  obtain ⟨P, t, el, N, L, B, k0, k1, q0, q1, s, _, _, hq0, hq1, hm⟩ := hb
  obtain ⟨_, _, _, _, _, _, _, _, _, _, _, _, h11, h12, _⟩ := AtomicElectron.make_eq hm
  rw [← h11] at hq0 hq1
  rw [← h12] at hq1
  have hin : ∀ q', q' ≤ e.qMin → ¬(1.000001 * e.qMax < q' ∨ 1.000001 * e.kMax < Real.sqrt (2 * U.mElectron * E) ∨
      Real.sqrt (2 * U.mElectron * E) < 0.999999 * e.kMin) := fun q' hq' => by
    push Not
    exact ⟨by linarith, hk.2, hk.1⟩
  constructor
  · have key : ∀ q', q' ≤ e.qMin → e.ionizationFormFactor U q' E =
        q' * q' / e.qMin / e.qMin * e.responses.getD 0 (fun _ _ => 0) (Real.sqrt (2 * U.mElectron * E)) e.qMin := fun q' hq' => by
      unfold AtomicElectron.ionizationFormFactor AtomicElectron.response
      dsimp only
      rw [if_neg (hin q' hq'), if_pos rfl, Detector.vecGet_getD (show 0 < e.responses.length by omega) (fun _ _ => 0), Outcome.bind_ok,
        if_neg (not_lt.2 hq')]
      rfl
    rw [key q hq, key e.qMin le_rfl]
    field_simp
  · intro r hr
    simp only [List.mem_cons, List.not_mem_nil, or_false] at hr
    unfold AtomicElectron.response
    dsimp only
    rw [if_neg (hin q hq), if_neg (by omega), if_pos (by omega), if_neg (not_lt.2 hq)]

theorem logSpace_sorted {x y : ℝ} {n : ℕ} (hx : 0 < x) (hxy : x < y) (hn : 2 ≤ n) : (logSpace x y n).Pairwise (· < ·) := by
  unfold logSpace
  rw [List.pairwise_map]
  refine List.pairwise_lt_range.imp fun {i j} hij => ?_
  have h1 : 1 < y / x := by rw [lt_div_iff₀ hx]; linarith
  have h2 : (i : ℝ) < j := by exact_mod_cast hij
  have h3 : (0 : ℝ) < (n : ℝ) - 1 := by
    have : (2 : ℝ) ≤ n := by exact_mod_cast hn
    linarith
  exact mul_lt_mul_of_pos_left (Real.rpow_lt_rpow_of_exponent_lt h1 (by gcongr)) hx

theorem logSpace_le {x y : ℝ} {n i : ℕ} {z : ℝ} (hx : 0 < x) (hxy : x < y) (hn : 2 ≤ n) (hz : (logSpace x y n)[i]? = some z) :
    x ≤ z ∧ z ≤ y ∧ (1 ≤ i → x < z) := by
  have hi : i < n := by
    by_contra hc
    rw [List.getElem?_eq_none (by rw [logSpace_length]; omega)] at hz
    cases hz
  have hz : z = x * (y / x) ^ ((i : ℝ) / ((n : ℝ) - 1)) := by
    have := logSpace_get (a := x) (b := y) hi
    unfold vecGet at this
    rw [hz] at this
    simpa using this
  have h1 : 1 < y / x := by rw [lt_div_iff₀ hx]; linarith
  have h3 : (0 : ℝ) < (n : ℝ) - 1 := by
    have : (2 : ℝ) ≤ n := by exact_mod_cast hn
    linarith
  have h4 : (i : ℝ) / ((n : ℝ) - 1) ≤ 1 := by
    rw [div_le_one h3]
    have : ((i + 1 : ℕ) : ℝ) ≤ n := by exact_mod_cast hi
    push_cast at this; linarith
  refine ⟨?_, ?_, fun h => ?_⟩
  · rw [hz]
    have := Real.one_le_rpow h1.le (show (0 : ℝ) ≤ (i : ℝ) / ((n : ℝ) - 1) by positivity)
    nlinarith
  · rw [hz]
    have := Real.rpow_le_rpow_of_exponent_le h1.le h4
    rw [Real.rpow_one] at this
    calc _ ≤ x * (y / x) := by gcongr
      _ = y := by field_simp
  · rw [hz]
    have h5 : (0 : ℝ) < i := by exact_mod_cast h
    have := Real.one_lt_rpow h1 (show (0 : ℝ) < (i : ℝ) / ((n : ℝ) - 1) by positivity)
    nlinarith

/-- C66 (inside): on the grid of the data file the response function is the tabulated value. The grid is equidistant in the logarithm
between the ends given to the constructor. -/
theorem C66_tabulated (hP : P.Nodes) {element : String} {N L : ℕ} {B k0 k1 q0 q1 : ℝ} {s : ℕ} (hk0 : 0 < k0) (hk : k0 < k1) (hq0 : 0 < q0)
    (hq : q0 < q1) (hm : AtomicElectron.make P tables element N L B k0 k1 q0 q1 s = .ok e) {r : ℕ} (hr : r ∈ [1, 2, 3, 4])
    {t : List (List ℝ)} {row : List ℝ} (ht : tables (e.name ++ "_" ++ toString r) = some t) (h0 : t[0]? = some row) (hn : 2 ≤ t.length)
    (hn' : 2 ≤ row.length) {i j : ℕ} {k q E z : ℝ} (hki : (logSpace k0 k1 t.length)[i]? = some k) (hE : E = k ^ 2 / (2 * U.mElectron))
    (hqj : (logSpace q0 q1 row.length)[j]? = some q) (hj : 1 ≤ j) (hz : (t[i]?.bind fun x => x[j]?) = some z) :
    e.response U r q E = .ok z := by
  obtain ⟨_, rs, _, hname, hcol, hresp, _, _, _, _, e1, e2, e3, e4, _⟩ := AtomicElectron.make_eq hm
  have hme := U.mElectron_pos
  obtain ⟨a1, a2, _⟩ := logSpace_le hk0 hk hn hki
  obtain ⟨b1, b2, b3⟩ := logSpace_le hq0 hq hn' hqj
  have b3 := b3 hj
  have hk' : Real.sqrt (2 * U.mElectron * E) = k := by
    rw [hE, mul_div_cancel₀ _ (by positivity), Real.sqrt_sq (by linarith)]
  -- the interpolation of the `r`-th table
  have himp : AtomicElectron.importResponse P tables e.name k0 k1 q0 q1 r =
      .ok (t.length, row.length, P (logSpace k0 k1 t.length) (logSpace q0 q1 row.length) t) := by
    unfold AtomicElectron.importResponse
    rw [ht]
    simp [vecGet, h0]
  have hr' : 1 ≤ r ∧ r ≤ 4 := by simp only [List.mem_cons, List.not_mem_nil, or_false] at hr; omega
  have hget : vecGet e.responses (r - 1) = .ok (P (logSpace k0 k1 t.length) (logSpace q0 q1 row.length) t) := by
    obtain ⟨_, hg⟩ := collect_eq_ok_length hcol
    have hri : ([1, 2, 3, 4] : List ℕ)[r - 1]? = some r := by
      obtain rfl | rfl | rfl | rfl : r = 1 ∨ r = 2 ∨ r = 3 ∨ r = 4 := by omega
      all_goals rfl
    obtain ⟨b, hb1, hb2⟩ := hg (r - 1) r hri
    rw [himp] at hb1
    cases hb1
    unfold vecGet
    rw [hresp, List.getElem?_map, hb2]
    rfl
  have hval := hP _ _ t (logSpace_sorted hk0 hk hn) (logSpace_sorted hq0 hq hn') i j k q z hki hqj hz
  unfold AtomicElectron.response
  dsimp only
  rw [hk', if_neg (by rw [e1, e2, e4]; push Not; exact ⟨by linarith, by linarith, by linarith⟩)]
  by_cases h1 : r = 1
  · subst h1
    rw [if_pos (by norm_num), hget, Outcome.bind_ok, if_pos (by rw [e3]; exact b3), hval]
  · rw [if_neg (by omega), if_pos (by omega), if_pos (by rw [e3]; exact b3), show ((r : ℤ) - 1).toNat = r - 1 by omega, hget,
      Outcome.bind_ok, hval]

/-- C66 (inside, lowest tabulated momentum): the first response function has the tabulated value there too. -/
theorem C66_tabulated_lowest (hP : P.Nodes) {element : String} {N L : ℕ} {B k0 k1 q0 q1 : ℝ} {s : ℕ} (hk0 : 0 < k0) (hk : k0 < k1)
    (hq0 : 0 < q0) (hq : q0 < q1) (hm : AtomicElectron.make P tables element N L B k0 k1 q0 q1 s = .ok e)
    {t : List (List ℝ)} {row : List ℝ} (ht : tables (e.name ++ "_1") = some t) (h0 : t[0]? = some row) (hn : 2 ≤ t.length)
    (hn' : 2 ≤ row.length) {i : ℕ} {k E z : ℝ} (hki : (logSpace k0 k1 t.length)[i]? = some k) (hE : E = k ^ 2 / (2 * U.mElectron))
    (hz : (t[i]?.bind fun x => x[0]?) = some z) :
    e.response U 1 q0 E = .ok z := by
  obtain ⟨_, rs, _, hname, hcol, hresp, _, _, _, _, e1, e2, e3, e4, _⟩ := AtomicElectron.make_eq hm
  have hme := U.mElectron_pos
  obtain ⟨a1, a2, _⟩ := logSpace_le hk0 hk hn hki
  have hk' : Real.sqrt (2 * U.mElectron * E) = k := by
    rw [hE, mul_div_cancel₀ _ (by positivity), Real.sqrt_sq (by linarith)]
  have himp : AtomicElectron.importResponse P tables e.name k0 k1 q0 q1 1 =
      .ok (t.length, row.length, P (logSpace k0 k1 t.length) (logSpace q0 q1 row.length) t) := by
    unfold AtomicElectron.importResponse
    have : e.name ++ "_" ++ toString 1 = e.name ++ "_1" := by
      rw [String.append_assoc]; rfl
    rw [this, ht]
    simp [vecGet, h0]
  have hget : vecGet e.responses 0 = .ok (P (logSpace k0 k1 t.length) (logSpace q0 q1 row.length) t) := by
    obtain ⟨_, hg⟩ := collect_eq_ok_length hcol
    obtain ⟨b, hb1, hb2⟩ := hg 0 1 rfl
    rw [himp] at hb1
    cases hb1
    unfold vecGet
    rw [hresp, List.getElem?_map, hb2]
    rfl
  have hq00 : (logSpace q0 q1 row.length)[0]? = some q0 := by
    have := logSpace_get (a := q0) (b := q1) (show 0 < row.length by omega)
    unfold vecGet at this
    cases hh : (logSpace q0 q1 row.length)[0]? with
    | none => rw [hh] at this; cases this
    | some w =>
      rw [hh] at this
      simp at this
      rw [this]
  have hval := hP _ _ t (logSpace_sorted hk0 hk hn) (logSpace_sorted hq0 hq hn') i 0 k q0 z hki hq00 hz
  unfold AtomicElectron.response
  dsimp only
  rw [hk', if_neg (by rw [e1, e2, e4]; push Not; exact ⟨by linarith, by linarith, by linarith⟩), if_pos rfl, hget, Outcome.bind_ok,
    if_neg (by rw [e3]; exact lt_irrefl _), e3, hval, Outcome.ok.injEq]
  field_simp

/-- Non-vacuity: a shell with small tables. -/
example (P : Interpolator2D) : ∃ e, BuiltShell e ∧ AtomicElectron.make P (fun _ => some [[1, 2], [3, 4]]) "Xe" 5 1 1 1 2 1 2 0 = .ok e := by
  obtain ⟨e, he⟩ := AtomicElectron.make_ok (P := P) (tables := fun _ => some [[1, 2], [3, 4]]) (element := "Xe") (letter := "p") (N := 5)
    (L := 1) (B := 1) (k0 := 1) (k1 := 2) (q0 := 1) (q1 := 2) (s := 0) rfl fun r _ => ⟨_, _, rfl, by simp, rfl, by simp⟩
  exact ⟨e, ⟨P, _, _, _, _, _, _, _, _, _, _, by norm_num, by norm_num, by norm_num, by norm_num, he⟩, he⟩

end Obscura
