import Verif.Input.Layout

/-!
# Lemmas: the steps of the reader on files in which every search finds the same words
-/

namespace Verif.Input

open Verif Outcome

noncomputable section

variable {lib : Lib} {ls ls' : List Text}

/-! ### keywords -/

instance (c : Char) : Decidable (White c) := by unfold White; infer_instance

theorem key_mk {k : Text} (h1 : '%' ∉ small k) (h2 : ∃ c ∈ (small k).getLast?, ¬ White c) (h3 : ∃ w ∈ vocabulary, w.toList <:+: small k) : Key k := by
  obtain ⟨c, hc, hw⟩ := h2
  refine ⟨h1, ⟨(small k).dropLast, c, ?_, hw⟩, h3⟩
  have hne : small k ≠ [] := by
    rintro h
    rw [h] at hc
    cases hc
  have := List.dropLast_append_getLast hne
  rw [List.getLast?_eq_some_getLast hne] at hc
  cases hc
  exact this.symm

/-- A word of the file in lower case. -/
structure Good (w : Text) : Prop where
  some : w ≠ []
  chars : ∀ c ∈ w, ¬ White c ∧ c ≠ '%' ∧ c.toLower = c

theorem Good.small {w : Text} (h : Good w) : small w = w := by
  unfold Verif.Input.small
  conv_rhs => rw [← List.map_id w]
  exact List.map_congr_left (fun c hc => (h.chars c hc).2.2)

/-- A keyword followed by a blank and a word. -/
theorem key_good {a w : Text} (ha : '%' ∉ small a) (h3 : ∃ v ∈ vocabulary, v.toList <:+: small a) (hw : Good w) : Key (a ++ w) := by
  have e : small (a ++ w) = small a ++ w := by rw [small_append, hw.small]
  refine ⟨?_, ?_, ?_⟩
  · rw [e, List.mem_append]
    rintro (h | h)
    · exact ha h
    · exact (hw.chars _ h).2.1 rfl
  · refine ⟨small a ++ w.dropLast, w.getLast hw.some, ?_, (hw.chars _ (List.getLast_mem hw.some)).1⟩
    rw [e, List.append_assoc, List.dropLast_append_getLast hw.some]
  · obtain ⟨v, hv, hi⟩ := h3
    exact ⟨v, hv, e ▸ hi.trans (List.prefix_append _ _).isInfix⟩

theorem key_solver (k : Calc.Kind) : Key ("solver ".toList ++ solverName k) := by
  cases k <;> exact key_mk (by decide +kernel) (by decide +kernel) (by decide +kernel)

theorem key_header (k : Calc.Kind) : Key (header "solver".toList (solverName k)) := by
  cases k <;> exact key_mk (by decide +kernel) (by decide +kernel) (by decide +kernel)

theorem words_mem {m : Text} {ws : List Text} (h : Words m ws) : ∀ w ∈ ws, w ≠ [] ∧ ∀ c ∈ w, ¬ White c ∧ c ∈ m := by
  induction h with
  | none => simp
  | cons hs hw hn hl _ ih =>
    intro v hv
    rcases List.mem_cons.1 hv with rfl | hv
    · exact ⟨hw, fun c hc => ⟨hn c hc, by simp [hc]⟩⟩
    · obtain ⟨a, b⟩ := ih v hv
      exact ⟨a, fun c hc => ⟨(b c hc).1, by simp [(b c hc).2]⟩⟩

theorem split_good {l : Text} : ∀ w ∈ splitLine (small l), Good w := by
  intro w hw
  obtain ⟨m, hc, hm⟩ := says_iff.2 (rfl : splitLine (small l) = splitLine (small l))
  obtain ⟨a, b⟩ := words_mem hm w hw
  refine ⟨a, fun c hcw => ⟨(b c hcw).1, ?_, ?_⟩⟩
  · rintro rfl
    exact hc.1 (b _ hcw).2
  · obtain ⟨r, e, -⟩ := hc.2
    have : c ∈ small l := by
      rw [e]
      exact List.mem_append_left _ (b c hcw).2
    have h2 := small_small l
    unfold small at h2 this
    rw [List.map_map] at h2
    obtain ⟨d, hd, rfl⟩ := List.mem_map.1 this
    exact List.map_inj_left.1 h2 d hd

theorem findFrom_small {key : Text} {low top : Nat} {opt : Bool} {n : Nat} {l : Text} (h : findFrom lib key low top opt n ls = ok l) : l = [] ∨ ∃ m, l = small m := by
  induction ls generalizing n with
  | nil =>
    unfold findFrom at h
    split at h
    · cases h
      exact Or.inl rfl
    · cases h
  | cons a ls ih =>
    obtain ⟨c, -, h⟩ := bind_eq_ok.1 h
    beta_reduce at h
    split at h
    · exact ih h
    · split at h
      · cases h
        exact Or.inr ⟨a, rfl⟩
      · exact ih h

theorem readMany_good {key : Text} {opt : Bool} {ws : List Text} (h : readMany lib ls key opt = ok ws) : ws = [[]] ∨ ∀ w ∈ ws, Good w := by
  obtain ⟨l, hl, h⟩ := bind_eq_ok.1 h
  have hg : ∀ w ∈ splitLine l, Good w := by
    rcases findFrom_small hl with rfl | ⟨m, rfl⟩
    · intro w hw
      simp [splitLine, wordsFrom] at hw
    · exact split_good
  beta_reduce at h
  generalize splitLine l = vs at h hg
  match vs, h with
  | [], h =>
    cases h
    exact Or.inl rfl
  | _ :: _ :: _, h =>
    cases h
    exact Or.inr (fun w hw => hg w (List.mem_cons_of_mem _ hw))

theorem regions_mem {ws : List Text} {c : List Nat × List ℝ × List Text} (h : regions lib ws = ok c) : ∀ w ∈ c.2.2, w ∈ ws ∧ 3 ≤ ws.length := by
  fun_induction regions lib ws generalizing c with
  | case1 =>
    cases h
    simp
  | case2 =>
    obtain ⟨n, -, h⟩ := bind_eq_ok.1 h
    cases h
    simp
  | case3 =>
    obtain ⟨n, -, h⟩ := bind_eq_ok.1 h
    obtain ⟨d, -, h⟩ := bind_eq_ok.1 h
    cases h
    simp
  | case4 n d m l ih =>
    obtain ⟨n, -, h⟩ := bind_eq_ok.1 h
    obtain ⟨d, -, h⟩ := bind_eq_ok.1 h
    obtain ⟨r, hr, h⟩ := bind_eq_ok.1 h
    cases h
    intro w hw
    rcases List.mem_cons.1 hw with rfl | hw
    · simp
    · have := ih hr w hw
      exact ⟨by simp [this.1], by simp⟩

/-! ### reading words -/

theorem readOne_look (key : Text) : readOne lib ls key = (look lib ls key 0 maxU false >>= fun ws => match ws with
  | [] => ub
  | [_, w] => ok w
  | _ => exit) := by
  unfold readOne look
  rw [bind_assoc]
  rfl

theorem readMany_look (key : Text) (opt : Bool) : readMany lib ls key opt = (look lib ls key 0 maxU opt >>= fun ws => match ws with
  | [] => ok [[]]
  | [_] => exit
  | _ :: ws => ok ws) := by
  unfold readMany look
  rw [bind_assoc]
  rfl

theorem find_look (key : Text) (a b : Nat) {α : Type} (f : List Text → Outcome α) :
    (findKeyword lib ls key a b false >>= fun l => f (splitLine l)) = (look lib ls key a b false >>= f) := by
  unfold look
  rw [bind_assoc]
  rfl

variable (hA : Agree lib ls ls')

include hA

theorem readOne_agree {key : Text} (hk : Key key) : readOne lib ls' key = readOne lib ls key := by rw [readOne_look, readOne_look, hA.card hk]

theorem readMany_agree {key : Text} (hk : Key key) (opt : Bool) : readMany lib ls' key opt = readMany lib ls key opt := by
  rw [readMany_look, readMany_look, hA.card hk]

theorem readValues_agree {key : Text} (hk : Key key) : readValues lib ls' key = readValues lib ls key := by
  unfold readValues
  rw [readMany_agree hA hk]

theorem property_agree {key : Text} (hk : Key key) (input : Calc.Kind) (s : Calc.Settings) (p : Calc.Plant) :
    property lib ls' key input s p = property lib ls key input s p := by
  unfold property
  split
  · rfl
  · rw [readOne_agree hA (key_solver _)]
    obtain ⟨b, b', e, e', h⟩ := hA.block (one := "solver".toList) (two := solverName s.kind)
      (key_mk (by decide +kernel) (by decide +kernel) (by decide +kernel)) (key_header _)
    rw [e, e', ok_bind, ok_bind]
    have := find_look (lib := lib) (ls := ls) key b.1 b.2 (f := fun x => assign lib x input s p)
    have h' := find_look (lib := lib) (ls := ls') key b'.1 b'.2 (f := fun x => assign lib x input s p)
    rw [this, h', h hk]

theorem properties_agree {key : Text} (hk : Key key) (input : Calc.Kind) (ss : List Calc.Settings) (p : Calc.Plant) :
    properties lib ls' key input ss p = properties lib ls key input ss p := by
  induction ss generalizing p with
  | nil => rfl
  | cons s ss ih =>
    unfold properties
    rw [property_agree hA hk]
    simp only [ih]

theorem eachMaterial_agree {map : List Text} {body body' : Nat × Nat → Nat → Mesh.Grid → Outcome Mesh.Grid}
    (hb : ∀ b b' : Nat × Nat, (∀ key, Key key → look lib ls key b.1 b.2 false = look lib ls' key b'.1 b'.2 false) → ∀ m g, body' b' m g = body b m g)
    {ws : List Text} (hw : ∀ w ∈ ws, Good w) (g : Mesh.Grid) : eachMaterial lib ls' map body' ws g = eachMaterial lib ls map body ws g := by
  induction ws generalizing g with
  | nil => rfl
  | cons w ws ih =>
    have gw := hw w List.mem_cons_self
    have k1 : Key ("material ".toList ++ w) := key_good (by decide +kernel) (by decide +kernel) gw
    have k2 : Key (header "material".toList w) := by
      unfold header
      exact key_good (by decide +kernel) (by decide +kernel) gw
    have k3 : Key "material".toList := key_mk (by decide +kernel) (by decide +kernel) (by decide +kernel)
    unfold eachMaterial
    rw [readOne_agree hA k1]
    obtain ⟨b, b', e, e', h⟩ := hA.block k3 k2
    rw [e, e', ok_bind, ok_bind]
    simp only [hb b b' (fun key hk => h hk), ih (fun v hv => hw v (List.mem_cons_of_mem _ hv))]

theorem readLaw_agree {b b' : Nat × Nat} (h : ∀ key, Key key → look lib ls key b.1 b.2 false = look lib ls' key b'.1 b'.2 false) {key : Text} (hk : Key key)
    (n : Nat) (put : Mesh.Material → Vec ℝ → Mesh.Material) (m : Nat) (g : Mesh.Grid) : readLaw lib ls' b' key n put m g = readLaw lib ls b key n put m g := by
  unfold readLaw
  rw [find_look (f := fun x => skip n x >>= fun ws => addLaw lib put ws m g), find_look (f := fun x => skip n x >>= fun ws => addLaw lib put ws m g), h key hk]

omit hA

/-! ### steps -/

/-- The same with other lines. -/
def swap (ls' : List Text) (r : Reader) : Reader := { r with lines := ls' }

/-- Between two steps. -/
structure Between (ls : List Text) (r : Reader) : Prop where
  lines : r.lines = ls
  mats : ∀ w ∈ r.mats, Good w

/-- A step does the same with the other lines. -/
def Sim (ls ls' : List Text) (f : Reader → Outcome Reader) : Prop :=
  ∀ r, Between ls r → f (swap ls' r) = (f r >>= fun x => ok (swap ls' x)) ∧ ∀ x, f r = ok x → Between ls x

theorem Sim.comp {f g : Reader → Outcome Reader} (hf : Sim ls ls' f) (hg : Sim ls ls' g) : Sim ls ls' (fun r => f r >>= g) := by
  intro r hr
  obtain ⟨e, h⟩ := hf r hr
  refine ⟨?_, fun x hx => ?_⟩
  · show (f (swap ls' r) >>= g) = _
    rw [e, bind_assoc, bind_assoc]
    cases hfr : f r with
    | ok x =>
      rw [ok_bind, ok_bind, ok_bind]
      exact (hg x (h x hfr)).1
    | exit => rfl
    | throws e => rfl
    | ub => rfl
    | nonfinite => rfl
  · obtain ⟨y, hy, hx⟩ := bind_eq_ok.1 hx
    exact (hg y (h y hy)).2 x hx

theorem Sim.pure : Sim ls ls' ok := fun r hr => ⟨rfl, fun x hx => by cases hx; exact hr⟩

theorem Sim.cond (b : Reader → Bool) (hb : ∀ r, b (swap ls' r) = b r) {f g : Reader → Outcome Reader} (hf : Sim ls ls' f) (hg : Sim ls ls' g) :
    Sim ls ls' (fun r => if b r = true then f r else g r) := by
  intro r hr
  beta_reduce
  rw [hb]
  by_cases h : b r = true
  · simp only [if_pos h]
    exact hf r hr
  · simp only [if_neg h]
    exact hg r hr

theorem ready_frame {r x : Reader} (hr : Between ls r) (h : Frame r x) : Between ls x := ⟨h.lines.trans hr.lines, h.mats.symm ▸ hr.mats⟩

/-- A step that is a calculation with the words found, followed by a change of the state. -/
theorem sim_of {f : Reader → Outcome Reader} (h1 : ∀ r, Between ls r → f (swap ls' r) = (f r >>= fun x => ok (swap ls' x)))
    (h2 : ∀ r x, f r = ok x → Frame r x) : Sim ls ls' f :=
  fun r hr => ⟨h1 r hr, fun x hx => ready_frame hr (h2 r x hx)⟩

section steps
include hA

theorem setSolvers_sim : Sim ls ls' (setSolvers lib) := by
  intro r hr
  refine ⟨?_, fun x hx => ?_⟩
  · unfold setSolvers
    show (readMany lib ls' _ false >>= _) = _
    rw [readMany_agree hA (key_mk (by decide +kernel) (by decide +kernel) (by decide +kernel)), hr.lines]
    simp only [bind_assoc]
    rfl
  · obtain ⟨ws, -, hx⟩ := bind_eq_ok.1 hx
    obtain ⟨ss, -, hx⟩ := bind_eq_ok.1 hx
    cases hx
    exact ⟨hr.lines, hr.mats⟩

theorem setGeometry_sim : Sim ls ls' (setGeometry lib) := by
  intro r hr
  refine ⟨?_, fun x hx => ?_⟩
  · unfold setGeometry
    show (readOne lib ls' _ >>= _) = _
    rw [readOne_agree hA (key_mk (by decide +kernel) (by decide +kernel) (by decide +kernel)), hr.lines]
    simp only [bind_assoc]
    rfl
  · obtain ⟨g, -, rfl⟩ := setGeometry_eq hx
    exact ⟨hr.lines, hr.mats⟩

theorem setMesh_sim : Sim ls ls' (setMesh lib) := by
  intro r hr
  refine ⟨?_, fun x hx => ?_⟩
  · unfold setMesh
    show (readMany lib ls' _ false >>= _) = _
    rw [readMany_agree hA (key_mk (by decide +kernel) (by decide +kernel) (by decide +kernel)), hr.lines]
    simp only [bind_assoc]
    rfl
  · refine ⟨(setMesh_solvers hx).1.trans hr.lines, ?_⟩
    obtain ⟨ws, hws, hx⟩ := bind_eq_ok.1 hx
    obtain ⟨c, hc, hx⟩ := bind_eq_ok.1 hx
    obtain ⟨b, -, hx⟩ := bind_eq_ok.1 hx
    obtain ⟨v, -, hx⟩ := bind_eq_ok.1 hx
    obtain ⟨m, -, hx⟩ := bind_eq_ok.1 hx
    obtain ⟨g, -, hx⟩ := bind_eq_ok.1 hx
    obtain ⟨e, -, hx⟩ := bind_eq_ok.1 hx
    obtain ⟨d, -, hx⟩ := bind_eq_ok.1 hx
    cases hx
    intro w hw
    have hw : w ∈ c.2.2 := mem_sortText.1 (mem_uniqueText.1 hw)
    obtain ⟨hm, hl⟩ := regions_mem hc w hw
    rcases readMany_good hws with rfl | hg
    · simp at hl
    · exact hg w hm

theorem setShape_sim : Sim ls ls' (setShape lib) :=
  Sim.cond (fun r => isHere r.solvers .transport || isHere r.solvers .diffusion || isHere r.solvers .ads || isHere r.solvers .heat) (fun _ => rfl)
    ((setGeometry_sim hA).comp (setMesh_sim hA)) Sim.pure

theorem setProperty_sim {key : String} (hk : Key key.toList) (input : Calc.Kind) : Sim ls ls' (setProperty lib key input) :=
  sim_of (fun r hr => by
    unfold setProperty
    show (properties lib ls' _ input r.solvers r.plant >>= _) = _
    rw [properties_agree hA hk, hr.lines]
    simp only [bind_assoc]
    rfl) (fun r x hx => setProperty_frame hx)

theorem setRelaxation_sim : Sim ls ls' (setRelaxation lib) :=
  Sim.cond (fun r => (isHere r.solvers .transport || isHere r.solvers .diffusion) && isHere r.solvers .heat && isHere r.solvers .coupled) (fun _ => rfl)
    (setProperty_sim hA (key := "relaxation_parameter") (key_mk (by decide +kernel) (by decide +kernel) (by decide +kernel)) _) Sim.pure

theorem setSettings_sim : Sim ls ls' (setSettings lib) := by
  have k1 : Key "accuracy".toList := key_mk (by decide +kernel) (by decide +kernel) (by decide +kernel)
  have k2 : Key "max_iteration_number".toList := key_mk (by decide +kernel) (by decide +kernel) (by decide +kernel)
  have k3 : Key "albedo".toList := key_mk (by decide +kernel) (by decide +kernel) (by decide +kernel)
  have k4 : Key "heat_boundary_conditions".toList := key_mk (by decide +kernel) (by decide +kernel) (by decide +kernel)
  have k5 : Key "energies".toList := key_mk (by decide +kernel) (by decide +kernel) (by decide +kernel)
  have k6 : Key "direction".toList := key_mk (by decide +kernel) (by decide +kernel) (by decide +kernel)
  have k7 : Key "eigenmodes".toList := key_mk (by decide +kernel) (by decide +kernel) (by decide +kernel)
  have k8 : Key "ext_source".toList := key_mk (by decide +kernel) (by decide +kernel) (by decide +kernel)
  exact (setProperty_sim hA k1 _).comp <| (setProperty_sim hA k2 _).comp <| (setProperty_sim hA k3 _).comp <| (setProperty_sim hA k3 _).comp <|
    (setProperty_sim hA k3 _).comp <| (setProperty_sim hA k4 _).comp <| (setProperty_sim hA k5 _).comp <| (setProperty_sim hA k5 _).comp <|
    (setProperty_sim hA k5 _).comp <| (setProperty_sim hA k6 _).comp <| (setProperty_sim hA k7 _).comp <| (setProperty_sim hA k7 _).comp <|
    (setProperty_sim hA k8 _).comp (setRelaxation_sim hA)

omit hA in
theorem number_percent (n : Nat) : '%' ∉ small (number n) := by
  intro h
  obtain ⟨c, hc, he⟩ := List.mem_map.1 h
  have := Nat.isDigit_of_mem_toDigits (by omega) (by omega) hc
  rw [lower_percent he] at this
  cases this

omit hA in
theorem key_paren {a x : Text} (ha : '%' ∉ small a) (h3 : ∃ v ∈ vocabulary, v.toList <:+: small a) (hx : '%' ∉ small x) : Key (a ++ x ++ ")".toList) := by
  have e : small (a ++ x ++ ")".toList) = small a ++ small x ++ [')'] := by
    rw [small_append, small_append]
    rfl
  refine ⟨?_, ⟨small a ++ small x, ')', e, by decide⟩, ?_⟩
  · rw [e, List.mem_append, List.mem_append]
    rintro ((h | h) | h)
    · exact ha h
    · exact hx h
    · simp at h
  · obtain ⟨v, hv, hi⟩ := h3
    refine ⟨v, hv, ?_⟩
    rw [e, List.append_assoc]
    exact hi.trans (List.prefix_append _ _).isInfix

theorem setXS_sim {name : String} (hp : '%' ∉ small (name.toList ++ "(".toList)) (hv : ∃ v ∈ vocabulary, v.toList <:+: small (name.toList ++ "(".toList))
    (put : Mesh.Material → Vec ℝ → Mesh.Material) (hn : ∀ m v, label (put m v) = label m) : Sim ls ls' (setXS lib name put) :=
  sim_of (fun r hr => by
    unfold setXS
    show (eachMaterial lib ls' r.map (fun b m g => loop (fun i g => readLaw lib ls' b _ 1 put m g) r.plant.grid.energies g) r.mats r.plant.grid >>= _) = _
    rw [eachMaterial_agree hA (body := fun b m g => loop (fun i g => readLaw lib ls b _ 1 put m g) r.plant.grid.energies g) (fun b b' h m g => ?_) hr.mats, hr.lines]
    · simp only [bind_assoc]
      rfl
    · congr 1
      funext i g
      exact readLaw_agree hA h (key_paren hp hv (number_percent _)) 1 put m g) (fun r x hx => (setXS_frame hx hn).1)

theorem setScattering_sim : Sim ls ls' (setScattering lib) :=
  sim_of (fun r hr => by
    unfold setScattering
    show (eachMaterial lib ls' r.map (fun b m g => loop (fun i g => loop (fun j g => readLaw lib ls' b _ 2 _ m g) r.plant.grid.energies g) r.plant.grid.energies g)
      r.mats r.plant.grid >>= _) = _
    rw [eachMaterial_agree hA (body := fun b m g => loop (fun i g => loop (fun j g => readLaw lib ls b _ 2 _ m g) r.plant.grid.energies g)
      r.plant.grid.energies g) (fun b b' h m g => ?_) hr.mats, hr.lines]
    · simp only [bind_assoc]
      rfl
    · congr 1
      funext i g
      congr 1
      funext j g
      refine readLaw_agree hA h ?_ 2 _ m g
      have : "scattMatrix(".toList ++ number (i + 1) ++ ", ".toList ++ number (j + 1) ++ ")".toList =
        "scattMatrix(".toList ++ (number (i + 1) ++ ", ".toList ++ number (j + 1)) ++ ")".toList := by simp only [List.append_assoc]
      rw [this]
      refine key_paren (by decide +kernel) (by decide +kernel) ?_
      rw [small_append, small_append, List.mem_append, List.mem_append]
      rintro ((h | h) | h)
      · exact number_percent _ h
      · revert h
        decide +kernel
      · exact number_percent _ h) (fun r x hx => (setScattering_frame hx).1)

theorem setConductivity_sim : Sim ls ls' (setConductivity lib) :=
  sim_of (fun r hr => by
    unfold setConductivity
    show (eachMaterial lib ls' r.map (fun b m g => findKeyword lib ls' _ b.1 b.2 >>= fun l => conductivityLaw lib (splitLine l) m g) r.mats r.plant.grid >>= _) = _
    rw [eachMaterial_agree hA (body := fun b m g => findKeyword lib ls _ b.1 b.2 >>= fun l => conductivityLaw lib (splitLine l) m g)
      (fun b b' h m g => ?_) hr.mats, hr.lines]
    · simp only [bind_assoc]
      rfl
    · have h1 := find_look (lib := lib) (ls := ls) "thermal_conductivity".toList b.1 b.2 (f := fun x => conductivityLaw lib x m g)
      have h2 := find_look (lib := lib) (ls := ls') "thermal_conductivity".toList b'.1 b'.2 (f := fun x => conductivityLaw lib x m g)
      rw [h1, h2, h _ (key_mk (by decide +kernel) (by decide +kernel) (by decide +kernel))]) (fun r x hx => (setConductivity_frame hx).1)

theorem setDiffusion_sim (d : Bool) : Sim ls ls' (setDiffusion lib d) := by
  cases d with
  | false => exact Sim.pure
  | true => exact setXS_sim hA (name := "diffCoeff") (by decide +kernel) (by decide +kernel) (fun x v => { x with diff := x.diff ++ [v] }) (fun _ _ => rfl)

theorem setNuclear_sim (d : Bool) : Sim ls ls' (setNuclear lib d) := by
  have h1 := setXS_sim hA (name := "ni") (by decide +kernel) (by decide +kernel) (fun x v => { x with nu := x.nu ++ [v] }) (fun _ _ => rfl)
  have h2 := setXS_sim hA (name := "chi") (by decide +kernel) (by decide +kernel) (fun x v => { x with chi := x.chi ++ [v] }) (fun _ _ => rfl)
  have h3 := setXS_sim hA (name := "fission") (by decide +kernel) (by decide +kernel) (fun x v => { x with fiss := x.fiss ++ [v] }) (fun _ _ => rfl)
  have h4 := setXS_sim hA (name := "total") (by decide +kernel) (by decide +kernel) (fun x v => { x with tot := x.tot ++ [v] }) (fun _ _ => rfl)
  exact h1.comp <| h2.comp <| h3.comp <| h4.comp <| (setDiffusion_sim hA d).comp (setScattering_sim hA)

omit hA in
/-- What the kinetics cards say. -/
def kineticsCards (lib : Lib) (ls : List Text) : Outcome Calc.KineticsSet := do
  let a ← readOne lib ls "generation_time".toList
  let alpha ← lib.stod a
  let w ← readOne lib ls "initial_power".toList
  let power ← lib.stod w
  let lam ← readValues lib ls "delayed_constants".toList
  let beta ← readValues lib ls "delayed_fractions".toList
  let times ← readValues lib ls "times".toList
  let rhos ← readValues lib ls "reactivities".toList
  if times.n = rhos.n then ok ⟨lam, beta, alpha, power, rhos, times⟩ else exit

omit hA in
theorem setKinetics_cards (r : Reader) : setKinetics lib r = (kineticsCards lib r.lines >>= fun k => ok { r with plant := { r.plant with kinetics := k } }) := by
  unfold setKinetics kineticsCards
  simp only [bind_assoc]
  congr 1; funext a; congr 1; funext b; congr 1; funext c; congr 1; funext d; congr 1; funext e; congr 1; funext f; congr 1; funext g; congr 1; funext h
  split
  · rfl
  · rfl

theorem kineticsCards_agree : kineticsCards lib ls' = kineticsCards lib ls := by
  have k1 : Key "generation_time".toList := key_mk (by decide +kernel) (by decide +kernel) (by decide +kernel)
  have k2 : Key "initial_power".toList := key_mk (by decide +kernel) (by decide +kernel) (by decide +kernel)
  have k3 : Key "delayed_constants".toList := key_mk (by decide +kernel) (by decide +kernel) (by decide +kernel)
  have k4 : Key "delayed_fractions".toList := key_mk (by decide +kernel) (by decide +kernel) (by decide +kernel)
  have k5 : Key "times".toList := key_mk (by decide +kernel) (by decide +kernel) (by decide +kernel)
  have k6 : Key "reactivities".toList := key_mk (by decide +kernel) (by decide +kernel) (by decide +kernel)
  unfold kineticsCards
  rw [readOne_agree hA k1, readOne_agree hA k2, readValues_agree hA k3, readValues_agree hA k4, readValues_agree hA k5, readValues_agree hA k6]

theorem setKinetics_sim : Sim ls ls' (setKinetics lib) :=
  sim_of (fun r hr => by
    rw [setKinetics_cards, setKinetics_cards, bind_assoc]
    show (kineticsCards lib ls' >>= _) = _
    rw [kineticsCards_agree hA, hr.lines]
    rfl) (fun r x hx => by
      obtain ⟨k, rfl⟩ := setKinetics_eq hx
      exact ⟨rfl, rfl, rfl, rfl, Kept.refl _, rfl, rfl⟩)

theorem setPower_sim : Sim ls ls' (setPower lib) :=
  sim_of (fun r hr => by
    unfold setPower
    show (readOne lib ls' _ >>= _) = _
    rw [readOne_agree hA (key_mk (by decide +kernel) (by decide +kernel) (by decide +kernel)), hr.lines]
    simp only [bind_assoc]
    rfl) (fun r x hx => by
      obtain ⟨k, rfl⟩ := setPower_eq hx
      exact ⟨rfl, rfl, rfl, rfl, Kept.refl _, rfl, rfl⟩)

theorem setSources_sim : Sim ls ls' (setSources lib) :=
  sim_of (fun r hr => by
    unfold setSources
    show (readValues lib ls' _ >>= _) = _
    rw [readValues_agree hA (key_mk (by decide +kernel) (by decide +kernel) (by decide +kernel)), hr.lines]
    simp only [bind_assoc]
    rfl) (fun r x hx => (setSources_frame hx).1)

theorem setTemps_sim : Sim ls ls' (setTemps lib) :=
  sim_of (fun r hr => by
    unfold setTemps
    show (readValues lib ls' _ >>= _) = _
    rw [readValues_agree hA (key_mk (by decide +kernel) (by decide +kernel) (by decide +kernel)), hr.lines]
    simp only [bind_assoc]
    rfl) (fun r x hx => (setTemps_frame hx).1)

theorem setHeat_sim : Sim ls ls' (setHeat lib) := by
  have hl : Sim ls ls' (setLoad lib) :=
    Sim.cond (fun r => isHere r.solvers .transport || isHere r.solvers .diffusion) (fun _ => rfl) (setPower_sim hA) (setSources_sim hA)
  exact hl.comp <| (setConductivity_sim hA).comp (setTemps_sim hA)

theorem setData_sim (k : Calc.Kind) : Sim ls ls' (setData lib k) := by
  cases k with
  | transport => exact setNuclear_sim hA false
  | diffusion => exact setNuclear_sim hA true
  | ads => exact setNuclear_sim hA true
  | kinetics => exact setKinetics_sim hA
  | heat => exact setHeat_sim hA
  | undefined => exact Sim.pure
  | coupled => exact Sim.pure

theorem setAll_sim (ss : List Calc.Settings) : Sim ls ls' (setAll lib ss) := by
  induction ss with
  | nil => exact Sim.pure
  | cons s ss ih => exact (setData_sim hA s.kind).comp ih

theorem setPlots_sim : Sim ls ls' (setPlots lib) :=
  sim_of (fun r hr => by
    unfold setPlots
    show (readMany lib ls' _ true >>= _) = _
    rw [readMany_agree hA (key_mk (by decide +kernel) (by decide +kernel) (by decide +kernel)), hr.lines]
    simp only [bind_assoc]
    rfl) (fun r x hx => (setPlots_frame hx).1)

theorem readData_sim {raw raw' : Option (List Text)} (h : storeInput raw = ok ls) (h' : storeInput raw' = ok ls') (p : Calc.Plant) :
    readData lib raw' p = (readData lib raw p >>= fun x => ok (swap ls' x)) := by
  have hall : Sim ls ls' (fun r => setAll lib r.solvers r) := fun r hr => setAll_sim hA r.solvers r hr
  have hs := (setSolvers_sim hA).comp <| (setShape_sim hA).comp <| (setSettings_sim hA).comp <| hall.comp (setPlots_sim hA)
  have := (hs ⟨ls, [], p, [], [], []⟩ ⟨rfl, by simp⟩).1
  unfold readData
  rw [h, h', ok_bind, ok_bind]
  exact this

theorem program_sim {raw raw' : Option (List Text)} (h : storeInput raw = ok ls) (h' : storeInput raw' = ok ls') (t : Calc.Tools) (p : Calc.Plant) :
    program lib t raw' p = program lib t raw p := by
  unfold program
  rw [readData_sim hA h h', bind_assoc]
  rfl

end steps

end

end Verif.Input
