import Verif.Input.MeshRead
import Verif.Input.Blocks

/-!
# What the steps of the reader leave unchanged
-/

namespace Verif.Input

open Verif Outcome

noncomputable section

variable {lib : Lib}

/-- The part of a material no card changes: its name and the fluxes stored with it. -/
def label (m : Mesh.Material) : String × Mat Fl × Mat Fl × Vec Fl := (m.name, m.flux, m.adj, m.total)

/-- The cells, the names of their materials and the stored fluxes are the same. -/
structure Kept (g g' : Mesh.Grid) : Prop where
  geom : g'.geom = g.geom
  bounds : g'.bounds = g.bounds
  cells : g'.cells = g.cells
  size : g'.mats.n = g.mats.n
  labels : ∀ i, label (g'.mats.v i) = label (g.mats.v i)
  forward : g'.nForward = g.nForward
  adjoint : g'.nAdjoint = g.nAdjoint

theorem Kept.names {g g' : Mesh.Grid} (h : Kept g g') (i : Nat) : (g'.mats.v i).name = (g.mats.v i).name := congrArg Prod.fst (h.labels i)

theorem Kept.flux {g g' : Mesh.Grid} (h : Kept g g') (i : Nat) : (g'.mats.v i).flux = (g.mats.v i).flux := congrArg (fun x => x.2.1) (h.labels i)

theorem Kept.adj {g g' : Mesh.Grid} (h : Kept g g') (i : Nat) : (g'.mats.v i).adj = (g.mats.v i).adj := congrArg (fun x => x.2.2.1) (h.labels i)

theorem Kept.total {g g' : Mesh.Grid} (h : Kept g g') (i : Nat) : (g'.mats.v i).total = (g.mats.v i).total := congrArg (fun x => x.2.2.2) (h.labels i)

theorem Kept.refl (g : Mesh.Grid) : Kept g g := ⟨rfl, rfl, rfl, rfl, fun _ => rfl, rfl, rfl⟩

theorem Kept.trans {g g' g'' : Mesh.Grid} (h : Kept g g') (h' : Kept g' g'') : Kept g g'' :=
  ⟨h'.geom.trans h.geom, h'.bounds.trans h.bounds, h'.cells.trans h.cells, h'.size.trans h.size, fun i => (h'.labels i).trans (h.labels i),
    h'.forward.trans h.forward, h'.adjoint.trans h.adjoint⟩

theorem change_eq {f : Mesh.Material → Mesh.Material} {i : Nat} {g g' : Mesh.Grid} (h : Mesh.change f i g = ok g') :
    i < g.mats.n ∧ g' = { g with mats := ⟨g.mats.n, Function.update g.mats.v i (f (g.mats.v i))⟩ } := by
  obtain ⟨m, hm, h⟩ := bind_eq_ok.1 h
  obtain ⟨x, hx, h⟩ := bind_eq_ok.1 h
  cases h
  by_cases hi : i < g.mats.n
  · rw [Vec.get_ok hi] at hm
    cases hm
    rw [Vec.set_ok hi] at hx
    cases hx
    exact ⟨hi, rfl⟩
  · rw [Vec.get_ub hi] at hm
    cases hm

theorem change_ok {f : Mesh.Material → Mesh.Material} {i : Nat} {g : Mesh.Grid} (h : i < g.mats.n) :
    Mesh.change f i g = ok { g with mats := ⟨g.mats.n, Function.update g.mats.v i (f (g.mats.v i))⟩ } := by
  unfold Mesh.change
  rw [Vec.get_ok h, ok_bind, Vec.set_ok h, ok_bind]

theorem change_kept {f : Mesh.Material → Mesh.Material} {i : Nat} {g g' : Mesh.Grid} (h : Mesh.change f i g = ok g') (hf : ∀ m, label (f m) = label m) : Kept g g' := by
  obtain ⟨-, rfl⟩ := change_eq h
  refine ⟨rfl, rfl, rfl, rfl, fun j => ?_, rfl, rfl⟩
  show label (Function.update g.mats.v i (f (g.mats.v i)) j) = _
  by_cases hj : j = i
  · subst hj
    rw [Function.update_self, hf]
  · rw [Function.update_of_ne hj]

theorem loop_kept {body : Nat → Mesh.Grid → Outcome Mesh.Grid} (hb : ∀ i g g', body i g = ok g' → Kept g g') {n : Nat} {g g' : Mesh.Grid}
    (h : loop body n g = ok g') : Kept g g' :=
  loop_inv_of_ok (fun _ u => Kept g u) (Kept.refl g) (fun i u u' _ hu he => hu.trans (hb i u u' he)) h

theorem setGroups_kept {n : Nat} {g g' : Mesh.Grid} (h : Mesh.setGroups n g = ok g') : Kept g g' ∧ g'.energies = n := by
  have h1 := loop_inv_of_ok (fun _ u => Kept { g with energies := n } u ∧ u.energies = n) ⟨Kept.refl _, rfl⟩ (fun i u u' _ hu he => by
    refine ⟨hu.1.trans (change_kept he (fun _ => rfl)), ?_⟩
    obtain ⟨-, rfl⟩ := change_eq he
    exact hu.2) h
  exact ⟨⟨h1.1.geom, h1.1.bounds, h1.1.cells, h1.1.size, h1.1.labels, h1.1.forward, h1.1.adjoint⟩, h1.2⟩

theorem setTemperatures_kept {t : Vec ℝ} {g g' : Mesh.Grid} (h : Mesh.setTemperatures t g = ok g') : Kept g g' :=
  loop_kept (fun i u u' he => by
    obtain ⟨y, -, he⟩ := bind_eq_ok.1 he
    exact change_kept he (fun _ => rfl)) h

theorem setHeatSources_kept {t : Vec ℝ} {g g' : Mesh.Grid} (h : Mesh.setHeatSources t g = ok g') : Kept g g' :=
  loop_kept (fun i u u' he => by
    obtain ⟨y, -, he⟩ := bind_eq_ok.1 he
    exact change_kept he (fun _ => rfl)) h

theorem addLaw_kept {put : Mesh.Material → Vec ℝ → Mesh.Material} (hp : ∀ m v, label (put m v) = label m) {ws : List Text} {m : Nat} {g g' : Mesh.Grid}
    (h : addLaw lib put ws m g = ok g') : Kept g g' := by
  unfold addLaw at h
  split at h
  · obtain ⟨xs, -, h⟩ := bind_eq_ok.1 h
    exact change_kept h (fun _ => hp _ _)
  · cases h

theorem readLaw_kept {lines : List Text} {b : Nat × Nat} {key : Text} {n : Nat} {put : Mesh.Material → Vec ℝ → Mesh.Material} (hp : ∀ m v, label (put m v) = label m)
    {m : Nat} {g g' : Mesh.Grid} (h : readLaw lib lines b key n put m g = ok g') : Kept g g' := by
  obtain ⟨l, -, h⟩ := bind_eq_ok.1 h
  obtain ⟨ws, -, h⟩ := bind_eq_ok.1 h
  exact addLaw_kept hp h

theorem eachMaterial_kept {lines map : List Text} {body : Nat × Nat → Nat → Mesh.Grid → Outcome Mesh.Grid} (hb : ∀ b m g g', body b m g = ok g' → Kept g g')
    {ws : List Text} {g g' : Mesh.Grid} (h : eachMaterial lib lines map body ws g = ok g') : Kept g g' := by
  induction ws generalizing g with
  | nil =>
    cases h
    exact Kept.refl _
  | cons w ws ih =>
    obtain ⟨x, -, h⟩ := bind_eq_ok.1 h
    obtain ⟨b, -, h⟩ := bind_eq_ok.1 h
    obtain ⟨g1, h1, h⟩ := bind_eq_ok.1 h
    refine Kept.trans (loop_kept (fun i u u' he => ?_) h1) (ih h)
    obtain ⟨v, -, he⟩ := bind_eq_ok.1 he
    split at he
    · exact hb b i u u' he
    · cases he
      exact Kept.refl _

/-- What all steps behind the mesh card leave unchanged. -/
structure Frame (r r' : Reader) : Prop where
  lines : r'.lines = r.lines
  map : r'.map = r.map
  mats : r'.mats = r.mats
  kinds : r'.solvers.map Calc.Settings.kind = r.solvers.map Calc.Settings.kind
  grid : Kept r.plant.grid r'.plant.grid
  forward : r'.plant.kForward = r.plant.kForward
  adjoint : r'.plant.kAdjoint = r.plant.kAdjoint

theorem Frame.refl (r : Reader) : Frame r r := ⟨rfl, rfl, rfl, rfl, Kept.refl _, rfl, rfl⟩

theorem Frame.trans {r r' r'' : Reader} (h : Frame r r') (h' : Frame r' r'') : Frame r r'' :=
  ⟨h'.lines.trans h.lines, h'.map.trans h.map, h'.mats.trans h.mats, h'.kinds.trans h.kinds, h.grid.trans h'.grid, h'.forward.trans h.forward,
    h'.adjoint.trans h.adjoint⟩

/-! ### settings -/

/-- What reading a setting leaves unchanged. -/
structure Same (s s' : Calc.Settings) (p p' : Calc.Plant) : Prop where
  kind : s'.kind = s.kind
  grid : Kept p.grid p'.grid
  power : p'.power = p.power
  forward : p'.kForward = p.kForward
  adjoint : p'.kAdjoint = p.kAdjoint
  kinetics : p'.kinetics = p.kinetics

theorem Same.refl (s : Calc.Settings) (p : Calc.Plant) : Same s s p p := ⟨rfl, Kept.refl _, rfl, rfl, rfl, rfl⟩

theorem oneValue_same {k v : Text} {input : Calc.Kind} {s : Calc.Settings} {p : Calc.Plant} {x : Calc.Settings × Calc.Plant}
    (h : oneValue lib k v input s p = ok x) : Same s x.1 p x.2 := by
  unfold oneValue at h
  repeat' split at h
  all_goals first
    | (obtain ⟨y, -, h⟩ := bind_eq_ok.1 h
       cases h
       exact ⟨rfl, Kept.refl _, rfl, rfl, rfl, rfl⟩)
    | (obtain ⟨y, -, h⟩ := bind_eq_ok.1 h
       obtain ⟨g, hg, h⟩ := bind_eq_ok.1 h
       cases h
       exact ⟨rfl, (setGroups_kept hg).1, rfl, rfl, rfl, rfl⟩)
    | (cases h; exact ⟨rfl, Kept.refl _, rfl, rfl, rfl, rfl⟩)
    | cases h

theorem setBoundary_same {vs : List Text} {s : Calc.Settings} {p : Calc.Plant} {x : Calc.Settings × Calc.Plant}
    (h : setBoundary lib vs s p = ok x) : Same s x.1 p x.2 := by
  obtain ⟨y, -, h⟩ := bind_eq_ok.1 h
  cases h
  exact ⟨rfl, Kept.refl _, rfl, rfl, rfl, rfl⟩

theorem twoValues_same {k v w : Text} {input : Calc.Kind} {s : Calc.Settings} {p : Calc.Plant} {x : Calc.Settings × Calc.Plant}
    (h : twoValues lib k v w input s p = ok x) : Same s x.1 p x.2 := by
  unfold twoValues at h
  repeat' split at h
  all_goals first
    | (obtain ⟨y, -, h⟩ := bind_eq_ok.1 h
       obtain ⟨z, -, h⟩ := bind_eq_ok.1 h
       cases h
       exact ⟨rfl, Kept.refl _, rfl, rfl, rfl, rfl⟩)
    | (cases h; exact ⟨rfl, Kept.refl _, rfl, rfl, rfl, rfl⟩)
    | cases h

theorem threeValues_same {k u v w : Text} {input : Calc.Kind} {s : Calc.Settings} {p : Calc.Plant} {x : Calc.Settings × Calc.Plant}
    (h : threeValues lib k u v w input s p = ok x) : Same s x.1 p x.2 := by
  unfold threeValues at h
  repeat' split at h
  all_goals first
    | exact setBoundary_same h
    | (obtain ⟨y, -, h⟩ := bind_eq_ok.1 h
       obtain ⟨z, -, h⟩ := bind_eq_ok.1 h
       obtain ⟨z', -, h⟩ := bind_eq_ok.1 h
       cases h
       exact ⟨rfl, Kept.refl _, rfl, rfl, rfl, rfl⟩)
    | (cases h; exact ⟨rfl, Kept.refl _, rfl, rfl, rfl, rfl⟩)
    | cases h

theorem sixValues_same {k : Text} {vs : List Text} {input : Calc.Kind} {s : Calc.Settings} {p : Calc.Plant} {x : Calc.Settings × Calc.Plant}
    (h : sixValues lib k vs input s p = ok x) : Same s x.1 p x.2 := by
  unfold sixValues at h
  repeat' split at h
  all_goals first
    | exact setBoundary_same h
    | (cases h; exact ⟨rfl, Kept.refl _, rfl, rfl, rfl, rfl⟩)
    | cases h

theorem assign_same {ws : List Text} {input : Calc.Kind} {s : Calc.Settings} {p : Calc.Plant} {x : Calc.Settings × Calc.Plant}
    (h : assign lib ws input s p = ok x) : Same s x.1 p x.2 := by
  unfold assign at h
  split at h
  · cases h
  · exact oneValue_same h
  · exact twoValues_same h
  · exact threeValues_same h
  · exact sixValues_same h
  · cases h

theorem property_same {lines : List Text} {key : Text} {input : Calc.Kind} {s : Calc.Settings} {p : Calc.Plant} {x : Calc.Settings × Calc.Plant}
    (h : property lib lines key input s p = ok x) : Same s x.1 p x.2 := by
  unfold property at h
  split at h
  · cases h
    exact Same.refl s p
  · obtain ⟨-, -, h⟩ := bind_eq_ok.1 h
    obtain ⟨b, -, h⟩ := bind_eq_ok.1 h
    obtain ⟨l, -, h⟩ := bind_eq_ok.1 h
    exact assign_same h

theorem properties_frame {lines : List Text} {key : Text} {input : Calc.Kind} {ss : List Calc.Settings} {p : Calc.Plant} {x : List Calc.Settings × Calc.Plant}
    (h : properties lib lines key input ss p = ok x) :
    x.1.map Calc.Settings.kind = ss.map Calc.Settings.kind ∧ Kept p.grid x.2.grid ∧ x.2.power = p.power ∧ x.2.kForward = p.kForward ∧ x.2.kAdjoint = p.kAdjoint ∧
    x.2.kinetics = p.kinetics := by
  induction ss generalizing p x with
  | nil =>
    cases h
    exact ⟨rfl, Kept.refl _, rfl, rfl, rfl, rfl⟩
  | cons s ss ih =>
    obtain ⟨y, hy, h⟩ := bind_eq_ok.1 h
    obtain ⟨z, hz, h⟩ := bind_eq_ok.1 h
    cases h
    have h1 := property_same hy
    obtain ⟨h2, h3, h4, h5, h6, h7⟩ := ih hz
    refine ⟨?_, h1.grid.trans h3, h4.trans h1.power, h5.trans h1.forward, h6.trans h1.adjoint, h7.trans h1.kinetics⟩
    rw [List.map_cons, List.map_cons, h2, h1.kind]

theorem setProperty_frame {key : String} {input : Calc.Kind} {r r' : Reader} (h : setProperty lib key input r = ok r') : Frame r r' := by
  obtain ⟨x, hx, h⟩ := bind_eq_ok.1 h
  cases h
  obtain ⟨h2, h3, -, h5, h6, -⟩ := properties_frame hx
  exact ⟨rfl, rfl, rfl, h2, h3, h5, h6⟩

theorem setRelaxation_frame {r r' : Reader} (h : setRelaxation lib r = ok r') : Frame r r' := by
  unfold setRelaxation at h
  split at h
  · exact setProperty_frame h
  · cases h
    exact Frame.refl _

theorem setSettings_frame {r r' : Reader} (h : setSettings lib r = ok r') : Frame r r' := by
  obtain ⟨r1, h1, h⟩ := bind_eq_ok.1 h
  obtain ⟨r2, h2, h⟩ := bind_eq_ok.1 h
  obtain ⟨r3, h3, h⟩ := bind_eq_ok.1 h
  obtain ⟨r4, h4, h⟩ := bind_eq_ok.1 h
  obtain ⟨r5, h5, h⟩ := bind_eq_ok.1 h
  obtain ⟨r6, h6, h⟩ := bind_eq_ok.1 h
  obtain ⟨r7, h7, h⟩ := bind_eq_ok.1 h
  obtain ⟨r8, h8, h⟩ := bind_eq_ok.1 h
  obtain ⟨r9, h9, h⟩ := bind_eq_ok.1 h
  obtain ⟨r10, h10, h⟩ := bind_eq_ok.1 h
  obtain ⟨r11, h11, h⟩ := bind_eq_ok.1 h
  obtain ⟨r12, h12, h⟩ := bind_eq_ok.1 h
  obtain ⟨r13, h13, h⟩ := bind_eq_ok.1 h
  exact (setProperty_frame h1).trans <| (setProperty_frame h2).trans <| (setProperty_frame h3).trans <| (setProperty_frame h4).trans <|
    (setProperty_frame h5).trans <| (setProperty_frame h6).trans <| (setProperty_frame h7).trans <| (setProperty_frame h8).trans <|
    (setProperty_frame h9).trans <| (setProperty_frame h10).trans <| (setProperty_frame h11).trans <| (setProperty_frame h12).trans <|
    (setProperty_frame h13).trans (setRelaxation_frame h)

/-! ### materials and the rest -/

theorem grid_frame {r : Reader} {g : Mesh.Grid} (h : Kept r.plant.grid g) : Frame r { r with plant := { r.plant with grid := g } } :=
  ⟨rfl, rfl, rfl, rfl, h, rfl, rfl⟩

theorem setXS_frame {name : String} {put : Mesh.Material → Vec ℝ → Mesh.Material} {r r' : Reader}
    (h : setXS lib name put r = ok r') (hp : ∀ m v, label (put m v) = label m) : Frame r r' ∧ r'.solvers = r.solvers := by
  obtain ⟨g, hg, h⟩ := bind_eq_ok.1 h
  cases h
  exact ⟨grid_frame (eachMaterial_kept (fun b m g g' he => loop_kept (fun i u u' hu => readLaw_kept hp hu) he) hg), rfl⟩

theorem setScattering_frame {r r' : Reader} (h : setScattering lib r = ok r') : Frame r r' ∧ r'.solvers = r.solvers := by
  obtain ⟨g, hg, h⟩ := bind_eq_ok.1 h
  cases h
  refine ⟨grid_frame (eachMaterial_kept (fun b m g g' he => loop_kept (fun i u u' hu => loop_kept (fun j v v' hv => ?_) hu) he) hg), rfl⟩
  exact readLaw_kept (put := fun x v => { x with scatt := x.scatt ++ [v] }) (fun _ _ => rfl) hv

theorem conductivityLaw_kept {ws : List Text} {m : Nat} {g g' : Mesh.Grid} (h : conductivityLaw lib ws m g = ok g') : Kept g g' := by
  unfold conductivityLaw at h
  split at h
  · cases h
  · cases h
  · split at h
    · obtain ⟨xs, -, h⟩ := bind_eq_ok.1 h
      exact change_kept h (fun _ => rfl)
    · cases h

theorem setConductivity_frame {r r' : Reader} (h : setConductivity lib r = ok r') : Frame r r' ∧ r'.solvers = r.solvers := by
  obtain ⟨g, hg, h⟩ := bind_eq_ok.1 h
  cases h
  refine ⟨grid_frame (eachMaterial_kept (fun b m g g' he => ?_) hg), rfl⟩
  obtain ⟨l, -, he⟩ := bind_eq_ok.1 he
  exact conductivityLaw_kept he

theorem setDiffusion_frame {d : Bool} {r r' : Reader} (h : setDiffusion lib d r = ok r') : Frame r r' ∧ r'.solvers = r.solvers := by
  cases d with
  | false =>
    cases h
    exact ⟨Frame.refl _, rfl⟩
  | true => exact setXS_frame (name := "diffCoeff") (put := fun x v => { x with diff := x.diff ++ [v] }) h (fun _ _ => rfl)

theorem setNuclear_frame {d : Bool} {r r' : Reader} (h : setNuclear lib d r = ok r') : Frame r r' ∧ r'.solvers = r.solvers := by
  obtain ⟨r1, h1, h⟩ := bind_eq_ok.1 h
  obtain ⟨r2, h2, h⟩ := bind_eq_ok.1 h
  obtain ⟨r3, h3, h⟩ := bind_eq_ok.1 h
  obtain ⟨r4, h4, h⟩ := bind_eq_ok.1 h
  obtain ⟨r5, h5, h⟩ := bind_eq_ok.1 h
  obtain ⟨f1, e1⟩ := setXS_frame h1 (fun _ _ => rfl)
  obtain ⟨f2, e2⟩ := setXS_frame h2 (fun _ _ => rfl)
  obtain ⟨f3, e3⟩ := setXS_frame h3 (fun _ _ => rfl)
  obtain ⟨f4, e4⟩ := setXS_frame h4 (fun _ _ => rfl)
  obtain ⟨f6, e6⟩ := setScattering_frame h
  have h5' := setDiffusion_frame h5
  exact ⟨f1.trans <| f2.trans <| f3.trans <| f4.trans <| h5'.1.trans f6, by rw [e6, h5'.2, e4, e3, e2, e1]⟩

theorem setKinetics_eq {r r' : Reader} (h : setKinetics lib r = ok r') : ∃ k, r' = { r with plant := { r.plant with kinetics := k } } := by
  obtain ⟨r1, -, h⟩ := bind_eq_ok.1 h
  obtain ⟨r2, -, h⟩ := bind_eq_ok.1 h
  obtain ⟨r3, -, h⟩ := bind_eq_ok.1 h
  obtain ⟨r4, -, h⟩ := bind_eq_ok.1 h
  obtain ⟨r5, -, h⟩ := bind_eq_ok.1 h
  obtain ⟨r6, -, h⟩ := bind_eq_ok.1 h
  obtain ⟨r7, -, h⟩ := bind_eq_ok.1 h
  obtain ⟨r8, -, h⟩ := bind_eq_ok.1 h
  split at h
  · cases h
    exact ⟨_, rfl⟩
  · cases h

theorem setPower_eq {r r' : Reader} (h : setPower lib r = ok r') : ∃ x, r' = { r with plant := { r.plant with power := x } } := by
  obtain ⟨w, -, h⟩ := bind_eq_ok.1 h
  obtain ⟨x, -, h⟩ := bind_eq_ok.1 h
  cases h
  exact ⟨x, rfl⟩

theorem setSources_frame {r r' : Reader} (h : setSources lib r = ok r') : Frame r r' ∧ r'.solvers = r.solvers := by
  obtain ⟨w, -, h⟩ := bind_eq_ok.1 h
  obtain ⟨x, hx, h⟩ := bind_eq_ok.1 h
  cases h
  exact ⟨grid_frame (setHeatSources_kept hx), rfl⟩

theorem setTemps_frame {r r' : Reader} (h : setTemps lib r = ok r') : Frame r r' ∧ r'.solvers = r.solvers := by
  obtain ⟨w, -, h⟩ := bind_eq_ok.1 h
  obtain ⟨x, hx, h⟩ := bind_eq_ok.1 h
  cases h
  exact ⟨grid_frame (setTemperatures_kept hx), rfl⟩

theorem setLoad_frame {r r' : Reader} (h : setLoad lib r = ok r') : Frame r r' ∧ r'.solvers = r.solvers := by
  unfold setLoad at h
  split at h
  · obtain ⟨x, rfl⟩ := setPower_eq h
    exact ⟨⟨rfl, rfl, rfl, rfl, Kept.refl _, rfl, rfl⟩, rfl⟩
  · exact setSources_frame h

theorem setHeat_frame {r r' : Reader} (h : setHeat lib r = ok r') : Frame r r' ∧ r'.solvers = r.solvers := by
  obtain ⟨r1, h1, h⟩ := bind_eq_ok.1 h
  obtain ⟨r2, h2, h⟩ := bind_eq_ok.1 h
  have h1' := setLoad_frame h1
  obtain ⟨f2, e2⟩ := setConductivity_frame h2
  obtain ⟨f3, e3⟩ := setTemps_frame h
  exact ⟨h1'.1.trans (f2.trans f3), by rw [e3, e2, h1'.2]⟩

theorem setData_frame {k : Calc.Kind} {r r' : Reader} (h : setData lib k r = ok r') : Frame r r' ∧ r'.solvers = r.solvers := by
  cases k with
  | transport => exact setNuclear_frame h
  | diffusion => exact setNuclear_frame h
  | ads => exact setNuclear_frame h
  | kinetics =>
    obtain ⟨x, rfl⟩ := setKinetics_eq h
    exact ⟨⟨rfl, rfl, rfl, rfl, Kept.refl _, rfl, rfl⟩, rfl⟩
  | heat => exact setHeat_frame (r := r) h
  | undefined =>
    cases h
    exact ⟨Frame.refl _, rfl⟩
  | coupled =>
    cases h
    exact ⟨Frame.refl _, rfl⟩

theorem setAll_frame {ss : List Calc.Settings} {r r' : Reader} (h : setAll lib ss r = ok r') : Frame r r' ∧ r'.solvers = r.solvers := by
  induction ss generalizing r with
  | nil =>
    cases h
    exact ⟨Frame.refl _, rfl⟩
  | cons s ss ih =>
    obtain ⟨r1, h1, h⟩ := bind_eq_ok.1 h
    obtain ⟨f1, e1⟩ := setData_frame h1
    obtain ⟨f2, e2⟩ := ih h
    exact ⟨f1.trans f2, e2.trans e1⟩

theorem setPlots_eq {r r' : Reader} (h : setPlots lib r = ok r') : ∃ x, r' = { r with plots := x } := by
  obtain ⟨w, -, h⟩ := bind_eq_ok.1 h
  cases h
  exact ⟨_, rfl⟩

theorem setGeometry_eq {r r' : Reader} (h : setGeometry lib r = ok r') :
    ∃ g, g ≠ .undefined ∧ r' = { r with plant := { r.plant with grid := { r.plant.grid with geom := g } } } := by
  obtain ⟨w, -, h⟩ := bind_eq_ok.1 h
  obtain ⟨g, hg, h⟩ := bind_eq_ok.1 h
  cases h
  refine ⟨g, ?_, rfl⟩
  rintro rfl
  unfold geomOf at hg
  repeat' split at hg
  all_goals cases hg

theorem setMesh_solvers {r r' : Reader} (h : setMesh lib r = ok r') : r'.lines = r.lines ∧ r'.solvers = r.solvers ∧ r'.plots = r.plots ∧
    r'.plant = { r.plant with grid := r'.plant.grid } ∧ r'.plant.grid.geom = r.plant.grid.geom := by
  obtain ⟨ws, -, h⟩ := bind_eq_ok.1 h
  obtain ⟨c, -, h⟩ := bind_eq_ok.1 h
  obtain ⟨b, -, h⟩ := bind_eq_ok.1 h
  obtain ⟨v, -, h⟩ := bind_eq_ok.1 h
  obtain ⟨m, -, h⟩ := bind_eq_ok.1 h
  obtain ⟨g, hg, h⟩ := bind_eq_ok.1 h
  obtain ⟨e, -, h⟩ := bind_eq_ok.1 h
  obtain ⟨d, -, h⟩ := bind_eq_ok.1 h
  cases h
  refine ⟨rfl, rfl, rfl, rfl, ?_⟩
  obtain ⟨x, -, hg⟩ := bind_eq_ok.1 hg
  cases hg
  rfl

theorem setShape_solvers {r r' : Reader} (h : setShape lib r = ok r') : r'.lines = r.lines ∧ r'.solvers = r.solvers ∧
    r'.plant = { r.plant with grid := r'.plant.grid } := by
  unfold setShape at h
  split at h
  · obtain ⟨r1, h1, h⟩ := bind_eq_ok.1 h
    obtain ⟨g, -, rfl⟩ := setGeometry_eq h1
    obtain ⟨a, b, -, c, -⟩ := setMesh_solvers h
    exact ⟨a, b, c⟩
  · cases h
    exact ⟨rfl, rfl, rfl⟩

/-- The stages of reading. -/
theorem readData_stages {file : Option (List Text)} {p : Calc.Plant} {r : Reader} (h : readData lib file p = ok r) :
    ∃ ls r1 r2 r3 r4, storeInput file = ok ls ∧ setSolvers lib ⟨ls, [], p, [], [], []⟩ = ok r1 ∧ setShape lib r1 = ok r2 ∧ setSettings lib r2 = ok r3 ∧
      setAll lib r3.solvers r3 = ok r4 ∧ setPlots lib r4 = ok r := by
  obtain ⟨ls, h0, h⟩ := bind_eq_ok.1 h
  obtain ⟨r1, h1, h⟩ := bind_eq_ok.1 h
  obtain ⟨r2, h2, h⟩ := bind_eq_ok.1 h
  obtain ⟨r3, h3, h⟩ := bind_eq_ok.1 h
  obtain ⟨r4, h4, h⟩ := bind_eq_ok.1 h
  exact ⟨ls, r1, r2, r3, r4, h0, h1, h2, h3, h4, h⟩

theorem setPlots_frame {r r' : Reader} (h : setPlots lib r = ok r') : Frame r r' ∧ r'.solvers = r.solvers ∧ r'.plant = r.plant := by
  obtain ⟨x, rfl⟩ := setPlots_eq h
  exact ⟨⟨rfl, rfl, rfl, rfl, Kept.refl _, rfl, rfl⟩, rfl, rfl⟩

end

end Verif.Input
