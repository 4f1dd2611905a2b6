import Verif.Echo.Model

/-! # The messages change nothing: the results are those of `Verif.Input` -/

namespace Verif.Echo

open Verif Outcome Input Tell

noncomputable section

variable {α β : Type} {v : Voice} {lib : Lib} {lines : List Text}

@[simp] theorem bind_res (m : Tell α) (f : α → Tell β) : (m >>= f).res = (m.res >>= fun a => (f a).res) := by
  show (Tell.bind m f).res = _
  unfold Tell.bind
  cases h : m.res <;> rfl

@[simp] theorem pure_res (a : α) : (pure a : Tell α).res = ok a := rfl

@[simp] theorem lift_res (x : Outcome α) : (lift x).res = x := rfl

@[simp] theorem say_res (l : List Text) : (say l).res = ok () := rfl

@[simp] theorem quit_res (t : Text) : (quit t : Tell α).res = exit := rfl

@[simp] theorem orSay_res (x : Outcome α) (t : Text) : (orSay x t).res = x := by cases x <;> rfl

theorem loop_res {body : Nat → α → Tell α} {body' : Nat → α → Outcome α} (h : ∀ i a, (body i a).res = body' i a) :
    ∀ n a, (Tell.loop body n a).res = Verif.loop body' n a
  | 0, _ => rfl
  | n + 1, a => by
    rw [Tell.loop, bind_res, loop_res h n a, loop_succ]
    simp only [h]

@[simp] theorem findKeyword_res (key : Text) (a b : Nat) (opt : Bool) : (findKeyword lib lines key a b opt).res = Input.findKeyword lib lines key a b opt :=
  orSay_res _ _

@[simp] theorem readOne_res (key : Text) : (readOne lib lines key).res = Input.readOne lib lines key := by
  unfold readOne Input.readOne
  rw [bind_res, findKeyword_res]
  congr 1
  funext l
  rcases splitLine l with _ | ⟨a, _ | ⟨b, _ | ⟨c, l⟩⟩⟩ <;> rfl

@[simp] theorem readMany_res (key : Text) (opt : Bool) : (readMany lib lines key opt).res = Input.readMany lib lines key opt := by
  unfold readMany Input.readMany
  rw [bind_res, findKeyword_res]
  congr 1
  funext l
  rcases splitLine l with _ | ⟨a, _ | ⟨b, l⟩⟩ <;> rfl

@[simp] theorem readValues_res (key : Text) (title : String) : (readValues v lib lines key title).res = Input.readValues lib lines key := by
  unfold readValues Input.readValues
  simp only [bind_res, readMany_res, lift_res, say_res, pure_res, ok_bind]
  congr 1
  funext ws
  cases values lib ws <;> rfl

theorem solverList_res : ∀ ws, (solverList ws).res = (Input.solverList ws >>= fun ss => ok (ss, ws.flatMap fun w => w ++ " ".toList))
  | [] => rfl
  | w :: ws => by
    rw [solverList, Input.solverList, bind_res, orSay_res, bind_assoc]
    congr 1
    funext k
    rw [bind_res, solverList_res ws, bind_assoc, bind_assoc]
    congr 1

@[simp] theorem setSolvers_res (r : Reader) : (setSolvers lib r).res = Input.setSolvers lib r := by
  unfold setSolvers Input.setSolvers
  rw [bind_res, readMany_res]
  congr 1
  funext ws
  rw [bind_res, solverList_res, bind_assoc]
  congr 1

@[simp] theorem setGeometry_res (r : Reader) : (setGeometry lib r).res = Input.setGeometry lib r := by
  unfold setGeometry Input.setGeometry
  simp only [bind_res, readOne_res, orSay_res, say_res, pure_res, ok_bind]

theorem formatWord_of_ok {w : Text} {x : ℝ} (h : lib.stod w = ok x) : ∃ t, formatWord v lib w = ok t := by
  unfold formatWord
  split
  · exact ⟨w, rfl⟩
  · exact ⟨v.fmt x, by rw [h]; rfl⟩

theorem formatLine_of_ok : ∀ {ws : List Text} {xs : List ℝ}, stods lib ws = ok xs → ∃ t, formatLine v lib ws = ok t
  | [], _, _ => ⟨[], rfl⟩
  | w :: ws, xs, h => by
    unfold stods at h
    obtain ⟨x, hx, h⟩ := bind_eq_ok.1 h
    obtain ⟨ys, hy, h⟩ := bind_eq_ok.1 h
    obtain ⟨t, ht⟩ := formatWord_of_ok (v := v) hx
    obtain ⟨u, hu⟩ := formatLine_of_ok hy
    exact ⟨t ++ " ".toList ++ u, by rw [formatLine, ht, ok_bind, hu, ok_bind]⟩

theorem formatLine_echo : ∀ ws, (formatLine v lib ws >>= fun _ => ok ()) = echo lib ws
  | [] => rfl
  | w :: ws => by
    rw [formatLine, echo, ← formatLine_echo ws]
    unfold formatWord
    split
    · simp only [ok_bind, bind_assoc]
    · simp only [bind_assoc, ok_bind]

@[simp] theorem setMesh_res (r : Reader) : (setMesh v lib r).res = Input.setMesh lib r := by
  unfold setMesh Input.setMesh
  simp only [bind_res, readMany_res, lift_res, say_res, pure_res, ok_bind, ← formatLine_echo (v := v), bind_assoc]

theorem assign_long (lib : Lib) {k : Text} {vs : List Text} (h : ¬ (vs.length = 1 ∨ vs.length = 2 ∨ vs.length = 3 ∨ vs.length = 6)) (input : Calc.Kind) (s : Calc.Settings)
    (p : Calc.Plant) : Input.assign lib (k :: vs) input s p = exit := by
  rcases vs with _ | ⟨a, _ | ⟨b, _ | ⟨c, _ | ⟨d, _ | ⟨e, _ | ⟨f, _ | ⟨g, vs⟩⟩⟩⟩⟩⟩⟩ <;> first | rfl | (exfalso; simp at h)

@[simp] theorem assign_res (ws : List Text) (input : Calc.Kind) (s : Calc.Settings) (p : Calc.Plant) : (assign lib ws input s p).res = Input.assign lib ws input s p := by
  unfold assign
  split
  · rfl
  · split
    · simp only [bind_res, say_res, ok_bind, orSay_res]
    · rw [quit_res, assign_long lib (by assumption)]

@[simp] theorem property_res (key : Text) (input : Calc.Kind) (s : Calc.Settings) (p : Calc.Plant) :
    (property lib lines key input s p).res = Input.property lib lines key input s p := by
  unfold property Input.property
  split
  · rfl
  · simp only [bind_res, readOne_res, lift_res, findKeyword_res, assign_res]

@[simp] theorem properties_res (key : Text) (input : Calc.Kind) : ∀ (ss : List Calc.Settings) (p : Calc.Plant),
    (properties lib lines key input ss p).res = Input.properties lib lines key input ss p
  | [], _ => rfl
  | s :: ss, p => by
    rw [properties, Input.properties]
    simp only [bind_res, property_res, properties_res key input ss, pure_res]

@[simp] theorem setProperty_res (key : String) (input : Calc.Kind) (r : Reader) : (setProperty lib key input r).res = Input.setProperty lib key input r := by
  unfold setProperty Input.setProperty
  simp only [bind_res, properties_res, pure_res]

@[simp] theorem readLaw_res (b : Nat × Nat) (key : Text) (n : Nat) (put : Mesh.Material → Vec ℝ → Mesh.Material) (m : Nat) (g : Mesh.Grid) :
    (readLaw v lib lines b key n put m g).res = Input.readLaw lib lines b key n put m g := by
  unfold readLaw Input.readLaw
  simp only [bind_res, findKeyword_res, lift_res, say_res, pure_res, ok_bind]
  congr 1
  funext l
  congr 1
  funext ws
  cases h : addLaw lib put ws m g with
  | ok x =>
    rw [ok_bind]
    unfold addLaw at h
    split at h
    · obtain ⟨xs, hx, -⟩ := bind_eq_ok.1 h
      obtain ⟨t, ht⟩ := formatLine_of_ok (v := v) hx
      rw [ht, ok_bind]
    · cases h
  | _ => rfl

theorem eachMaterial_res {map : List Text} {body : Nat × Nat → Nat → Mesh.Grid → Tell Mesh.Grid} {body' : Nat × Nat → Nat → Mesh.Grid → Outcome Mesh.Grid}
    (h : ∀ b m g, (body b m g).res = body' b m g) : ∀ (ws : List Text) (g : Mesh.Grid), (eachMaterial lib lines map body ws g).res = Input.eachMaterial lib lines map body' ws g
  | [], _ => rfl
  | w :: ws, g => by
    rw [eachMaterial, Input.eachMaterial]
    simp only [bind_res, readOne_res, lift_res, eachMaterial_res h ws]
    congr 1
    funext _
    congr 1
    funext b
    congr 1
    refine loop_res (fun i g => ?_) _ _
    rw [bind_res, lift_res]
    congr 1
    funext x
    split
    · exact h _ _ _
    · rfl

@[simp] theorem setXS_res (name title : String) (put : Mesh.Material → Vec ℝ → Mesh.Material) (r : Reader) : (setXS v lib name title put r).res = Input.setXS lib name put r := by
  unfold setXS Input.setXS
  simp only [bind_res, say_res, ok_bind, pure_res]
  congr 1
  refine eachMaterial_res (fun b m g => ?_) _ _
  simp only [bind_res, say_res, ok_bind, pure_res]
  rw [loop_res (fun i g => readLaw_res _ _ _ _ _ _)]
  exact bind_pure _

@[simp] theorem setScattering_res (r : Reader) : (setScattering v lib r).res = Input.setScattering lib r := by
  unfold setScattering Input.setScattering
  simp only [bind_res, say_res, ok_bind, pure_res]
  congr 1
  refine eachMaterial_res (fun b m g => ?_) _ _
  refine loop_res (fun i g => ?_) _ _
  simp only [bind_res, say_res, ok_bind, pure_res]
  rw [loop_res (fun i g => readLaw_res _ _ _ _ _ _)]
  exact bind_pure _

@[simp] theorem conductivityLaw_res (ws : List Text) (m : Nat) (g : Mesh.Grid) : (conductivityLaw v lib ws m g).res = Input.conductivityLaw lib ws m g := by
  rcases ws with _ | ⟨w, _ | ⟨a, vs⟩⟩
  · rfl
  · rfl
  · show Tell.res (if _ then _ else _) = if _ then _ else _
    split
    · simp only [bind_res, lift_res, say_res, ok_bind, pure_res]
      cases h : stods lib (a :: vs) with
      | ok xs =>
        obtain ⟨t, ht⟩ := formatLine_of_ok (v := v) h
        simp only [ok_bind, ht]
        exact bind_pure _
      | _ => rfl
    · rfl

@[simp] theorem setConductivity_res (r : Reader) : (setConductivity v lib r).res = Input.setConductivity lib r := by
  unfold setConductivity Input.setConductivity
  simp only [bind_res, say_res, ok_bind, pure_res]
  congr 1
  refine eachMaterial_res (fun b m g => ?_) _ _
  simp only [bind_res, findKeyword_res, conductivityLaw_res]

@[simp] theorem setDiffusion_res (d : Bool) (r : Reader) : (setDiffusion v lib d r).res = Input.setDiffusion lib d r := by
  unfold setDiffusion Input.setDiffusion
  split
  · exact setXS_res _ _ _ _
  · rfl

@[simp] theorem setNuclear_res (d : Bool) (r : Reader) : (setNuclear v lib d r).res = Input.setNuclear lib d r := by
  unfold setNuclear Input.setNuclear
  simp only [bind_res, setXS_res, setDiffusion_res, setScattering_res]

@[simp] theorem setKinetics_res (r : Reader) : (setKinetics v lib r).res = Input.setKinetics lib r := by
  unfold setKinetics Input.setKinetics
  simp only [bind_res, readOne_res, lift_res, say_res, ok_bind, readValues_res]
  iterate 8 refine congrArg (Bind.bind _) (funext fun _ => ?_)
  split <;> rfl

@[simp] theorem setPower_res (r : Reader) : (setPower v lib r).res = Input.setPower lib r := by
  unfold setPower Input.setPower
  simp only [bind_res, readOne_res, lift_res, say_res, ok_bind, pure_res]
  congr 1
  funext w
  cases h : lib.stod w with
  | ok x =>
    obtain ⟨t, ht⟩ := formatWord_of_ok (v := v) h
    rw [ok_bind, ht, ok_bind, ok_bind]
  | _ => rfl

@[simp] theorem setSources_res (r : Reader) : (setSources v lib r).res = Input.setSources lib r := by
  unfold setSources Input.setSources
  simp only [bind_res, readValues_res, lift_res, pure_res]

@[simp] theorem setTemps_res (r : Reader) : (setTemps v lib r).res = Input.setTemps lib r := by
  unfold setTemps Input.setTemps
  simp only [bind_res, readValues_res, lift_res, pure_res]

@[simp] theorem setLoad_res (r : Reader) : (setLoad v lib r).res = Input.setLoad lib r := by
  unfold setLoad Input.setLoad
  split
  · exact setPower_res r
  · exact setSources_res r

@[simp] theorem setHeat_res (r : Reader) : (setHeat v lib r).res = Input.setHeat lib r := by
  unfold setHeat Input.setHeat
  simp only [bind_res, setLoad_res, setConductivity_res, setTemps_res]

@[simp] theorem setData_res (k : Calc.Kind) (r : Reader) : (setData v lib k r).res = Input.setData lib k r := by
  cases k
  · rfl
  · rfl
  · exact setNuclear_res _ _
  · exact setKinetics_res _
  · exact setHeat_res _
  · exact setNuclear_res _ _
  · exact setNuclear_res _ _

@[simp] theorem setAll_res : ∀ (ss : List Calc.Settings) (r : Reader), (setAll v lib ss r).res = Input.setAll lib ss r
  | [], _ => rfl
  | s :: ss, r => by
    rw [setAll, Input.setAll]
    simp only [bind_res, setData_res, setAll_res ss]

@[simp] theorem setPlots_res (r : Reader) : (setPlots lib r).res = Input.setPlots lib r := by
  unfold setPlots Input.setPlots
  simp only [bind_res, readMany_res, pure_res]

@[simp] theorem setShape_res (r : Reader) : (setShape v lib r).res = Input.setShape lib r := by
  unfold setShape Input.setShape
  split
  · simp only [bind_res, setGeometry_res, setMesh_res]
  · rfl

@[simp] theorem setRelaxation_res (r : Reader) : (setRelaxation lib r).res = Input.setRelaxation lib r := by
  unfold setRelaxation Input.setRelaxation
  split
  · exact setProperty_res _ _ _
  · rfl

@[simp] theorem setSettings_res (r : Reader) : (setSettings lib r).res = Input.setSettings lib r := by
  unfold setSettings Input.setSettings
  simp only [bind_res, setProperty_res, setRelaxation_res]

theorem readData_res (file : Option (List Text)) (p : Calc.Plant) : (readData v lib file p).res = Input.readData lib file p := by
  unfold readData Input.readData
  simp only [bind_res, orSay_res, setSolvers_res, setShape_res, setSettings_res, setAll_res, setPlots_res]

end

end Verif.Echo
