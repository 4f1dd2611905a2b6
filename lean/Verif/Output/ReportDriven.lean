import Verif.Output.ReportEnd
import Verif.Calc.Driven

/-!
# Helper lemmas for the report of a source-driven calculation
-/

namespace Verif.Output

open Verif Outcome

noncomputable section

variable {e : Env} {fmt : Fl → Text} {o : Calc.Settings} {p p' : Calc.Plant}

theorem modes_forward (h : Sound p) : diffusionModes fmt .forward p = ok (forwardModes fmt p.grid p.kForward) := by
  obtain ⟨X, e1, a1, b1, c1, v1⟩ := forwardBox h.whole h.stocked
  have hall := allModes_ok (fmt := fmt) (title := "Neutron Flux") (unit := "[1/(cm2*s)]:") (t := "Neutron Flux ".toList) (u := " [1/(cm2*s)]:".toList) a1 b1
    (c1.trans h.forward) (fun i hi j hj n hn' => v1 i hi j hj n (by rw [h.forward]; exact hn')) (by decide) (by decide)
  unfold diffusionModes forwardModes
  dsimp only
  rw [e1, ok_bind]
  by_cases h1 : 1 < p.kForward.length
  · rw [if_pos h1, if_pos h1, hall]
  · rw [if_neg h1, if_neg h1]

theorem modes_adjoint (h : Sound p) : diffusionModes fmt .adjoint p = ok (adjointModes fmt p.grid p.kAdjoint) := by
  obtain ⟨X, e1, a1, b1, c1, v1⟩ := adjointBox h.whole h.stocked
  have hall := allModes_ok (fmt := fmt) (title := "Adjoint Flux") (unit := "[arbitrary]:") (t := "Adjoint Flux ".toList) (u := " [arbitrary]:".toList) a1 b1
    (c1.trans h.adjoint) (fun i hi j hj n hn' => v1 i hi j hj n (by rw [h.adjoint]; exact hn')) (by decide) (by decide)
  unfold diffusionModes adjointModes
  dsimp only
  rw [e1, ok_bind]
  by_cases h1 : 1 < p.kAdjoint.length
  · rw [if_pos h1, if_pos h1, hall]
  · rw [if_neg h1, if_neg h1]

theorem production_size {P : Mat ℝ} {vol : Vec ℝ} {adj fwd : Mesh.Box Fl} {x : Vec Fl} (h : Calc.adjointProduction P vol adj fwd = ok x) : x.n = adj.c := by
  refine loop_inv_of_ok (fun _ (x : Vec Fl) => x.n = adj.c) rfl (fun n x x' _ i1 h1 => ?_) h
  refine loop_inv_of_ok (fun _ (x : Vec Fl) => x.n = adj.c) i1 (fun m x x' _ i2 h2 => ?_) h1
  refine loop_inv_of_ok (fun _ (x : Vec Fl) => x.n = adj.c) i2 (fun e x x' _ i3 h3 => ?_) h2
  simp only [bind_eq_ok] at h3
  obtain ⟨_, _, _, _, _, _, _, _, _, _, h3⟩ := h3
  unfold Vec.set at h3
  split at h3
  · cases h3
    exact i3
  · cases h3

theorem modes_congr {title unit : String} {a b : Nat} {k : List Fl} {y y' : Nat → Nat → Nat → Fl} (h : ∀ g, g < a → ∀ i, i < b → ∀ n, y g i n = y' g i n) :
    modesLog fmt title unit a b k y = modesLog fmt title unit a b k y' := by
  unfold modesLog modeLog groupTexts
  refine List.flatMap_congr fun n _ => ?_
  congr 3
  exact List.flatMap_congr fun g hg => List.map_congr_left fun i hi => by dsimp only; rw [h g (List.mem_range.1 hg) i (List.mem_range.1 hi)]

/-- the lines printed fail where the calculation fails -/
theorem drivenLines_fails {β : Type} (f : List Text → Calc.Plant → Outcome β) (h : ∀ r, Calc.driven p ≠ ok r) :
    (drivenLines fmt p >>= fun z => Calc.driven p >>= f z) = (Calc.driven p >>= fun r => f [] r) := by
  have aux : ∀ {α β : Type} {x : Outcome α} {f g : α → Outcome β}, (∀ a, x ≠ ok a) → (x >>= f) = (x >>= g) := by
    intro α β x f g hx
    cases x with
    | ok a => exact absurd rfl (hx a)
    | _ => rfl
  by_cases hz : ∃ z, drivenLines fmt p = ok z
  · obtain ⟨z, hz⟩ := hz
    rw [hz, ok_bind]
    exact aux h
  · have hz : ∀ z, drivenLines fmt p ≠ ok z := fun z e => hz ⟨z, e⟩
    have : (drivenLines fmt p >>= fun _ => (ok () : Outcome Unit)) = (Calc.driven p >>= fun _ => ok ()) := by
      unfold drivenLines Calc.driven
      unfold drivenLines at hz
      cases h1 : Calc.toUnsigned p.source.1 with
      | ok s =>
        rw [h1] at hz
        simp only [ok_bind] at hz ⊢
        cases h2 : Mesh.volumes p.grid "cm" with
        | ok vol =>
          rw [h2] at hz
          simp only [ok_bind] at hz ⊢
          cases h3 : Mesh.adjoints p.grid with
          | ok adj =>
            rw [h3] at hz
            simp only [ok_bind] at hz ⊢
            cases h4 : Calc.adjointSource s (Calc.decrement p.source.2.1) (Calc.decrement p.source.2.2) vol adj with
            | ok q =>
              rw [h4] at hz
              simp only [ok_bind] at hz ⊢
              cases h5 : Mesh.fluxes p.grid with
              | ok fwd =>
                rw [h5] at hz
                simp only [ok_bind] at hz ⊢
                cases h6 : Mesh.production p.grid with
                | ok P =>
                  rw [h6] at hz
                  simp only [ok_bind] at hz ⊢
                  cases h7 : Calc.adjointProduction P vol adj fwd with
                  | ok x =>
                    rw [h7] at hz
                    simp only [ok_bind] at hz ⊢
                    cases h8 : Calc.quotients q x with
                    | ok ratio =>
                      rw [h8] at hz
                      simp only [ok_bind] at hz ⊢
                      cases h9 : Calc.totalFluxes p.kForward ratio fwd with
                      | ok t =>
                        rw [h9] at hz
                        exact absurd rfl (hz _)
                      | _ => rfl
                    | _ => rfl
                  | _ => rfl
                | _ => rfl
              | _ => rfl
            | _ => rfl
          | _ => rfl
        | _ => rfl
      | _ => rfl
    cases h1 : drivenLines fmt p <;> cases h2 : Calc.driven p <;> rw [h1, h2] at this <;>
      first
        | rfl
        | exact absurd h1 (hz _)
        | exact absurd h2 (h _)
        | (cases this <;> rfl)

/-- what is printed by a source-driven calculation that comes to its end -/
theorem driven_lines (h : Sound p) (hr : Calc.driven p = ok p') : ∃ z, drivenLines fmt p = ok z ∧
    DrivenLog fmt p' (forwardModes fmt p.grid p.kForward ++ adjointModes fmt p.grid p.kAdjoint ++ z) := by
  unfold Calc.driven at hr
  simp only [bind_eq_ok] at hr
  obtain ⟨s, h1, vol, h2, adj, h3, q, h4, fwd, h5, P, h6, x, h7, ratio, h8, t, h9, G, h10, hr⟩ := hr
  cases hr
  obtain ⟨ta, tb⟩ := Calc.totalFluxes_size h9
  obtain ⟨fa, fb, fc⟩ := Calc.box_size h5
  obtain ⟨aa, ab, ac⟩ := Calc.box_size h3
  obtain ⟨G', e, hC⟩ := Calc.setTotals_ok (M := p.grid) (t := t) (by rw [tb, fb]) h.whole.mats.ge
  rw [h10] at e
  cases e
  have hq : q.n = p.grid.nAdjoint := by
    unfold Calc.adjointSource at h4
    split at h4
    · obtain ⟨v, -, h4⟩ := bind_eq_ok.1 h4
      cases h4
      exact ac
    · cases h4
  have hx : x.n = p.grid.nAdjoint := (production_size h7).trans ac
  have hratio : ratio.n = p.grid.nAdjoint := by
    unfold Calc.quotients at h8
    split at h8
    · cases h8
      exact hq
    · cases h8
  refine ⟨"adjoint_q:".toList :: vectorLines fmt q.toList ++ "adjoint_P_forward:".toList :: vectorLines fmt x.toList ++
    "ratio:".toList :: vectorLines fmt ratio.toList ++ "Total Flux:".toList :: matrixLines fmt t, ?_, ?_⟩
  · unfold drivenLines
    rw [h1, ok_bind, h2, ok_bind, h3, ok_bind, h4, ok_bind, h5, ok_bind, h6, ok_bind, h7, ok_bind, h8, ok_bind, h9, ok_bind]
  · obtain ⟨c1, c2, c3, c4, c5, c6, c7, c8⟩ := hC
    have hl : ∀ (y : Vec Fl), y.n = p.grid.nAdjoint → (y.toList.map fmt).length = p.grid.nAdjoint := by
      intro y hy
      simp [Vec.toList, hy]
    refine ⟨q.toList.map fmt, x.toList.map fmt, ratio.toList.map fmt, ?_, ?_, ?_, ?_⟩
    · rw [hl q hq]; exact c6.symm
    · rw [hl x hx]; exact c6.symm
    · rw [hl ratio hratio]; exact c6.symm
    · have hv : ∀ i, i < p.grid.cells → G.mats.v i = { p.grid.mats.v i with total := ⟨t.r, fun g => t.m g i⟩ } := fun i hi => by rw [c8 i, if_pos hi]
      have hf : forwardModes fmt G p.kForward = forwardModes fmt p.grid p.kForward := by
        unfold forwardModes
        rw [c3, c4]
        refine if_congr Iff.rfl (modes_congr fun g _ i hi n => ?_) rfl
        rw [hv i hi]
      have ha : adjointModes fmt G p.kAdjoint = adjointModes fmt p.grid p.kAdjoint := by
        unfold adjointModes
        rw [c3, c4]
        refine if_congr Iff.rfl (modes_congr fun g _ i hi n => ?_) rfl
        rw [hv i hi]
      have ht : matrixLines fmt t = groupTexts fmt G.energies G.cells (fun e i => (G.mats.v i).total.v e) ++ [" ".toList] := by
        rw [c3, c4]
        refine matrixLines_eq (ta.trans fa) (tb.trans fb) fun g _ i hi => ?_
        rw [hv i hi]
      show _ = forwardModes fmt G p.kForward ++ adjointModes fmt G p.kAdjoint ++ _ ++ _ ++ _ ++ block "Total Flux:" (groupTexts fmt G.energies G.cells fun e i => (G.mats.v i).total.v e)
      rw [hf, ha, ht]
      unfold block vectorLines
      simp only [List.append_assoc, List.cons_append, List.nil_append]

/-- the report of a source-driven calculation -/
theorem ads_report {base : Text} {want : List Input.Plot} (hk : o.kind = .ads) (h : Sound p) (hE : o.energies = p.grid.energies) (hr : Calc.problem e.tools p [o] = ok p') :
    ∃ ls, DrivenLog e.fmt p' ls ∧ calculate e base want p [o] = ok ⟨p', ls, []⟩ := by
  unfold Calc.problem at hr
  dsimp only at hr
  rw [if_pos hk] at hr
  unfold Calc.ads at hr
  simp only [bind_eq_ok] at hr
  obtain ⟨⟨p1, x1⟩, h1, ⟨p2, x2⟩, h2, hr⟩ := hr
  obtain ⟨s1, m1, -, -⟩ := diffusionSolve_forward (o := { o with kind := .diffusion, direction := .forward, modes := .all }) h hE rfl h1
  obtain ⟨s2, m2, k2, -⟩ := diffusionSolve_adjoint (o := { o with kind := .diffusion, direction := .adjoint, modes := .all }) s1 (hE.trans m1.energies.symm) rfl h2
  have hfl := diffusionSolve_fluxes rfl h2
  obtain ⟨z, hz, hl⟩ := driven_lines (fmt := e.fmt) s2 hr
  refine ⟨_, hl, ?_⟩
  unfold calculate
  dsimp only
  rw [if_pos hk]
  unfold ads
  rw [h1, ok_bind, modes_forward s1, ok_bind, h2, ok_bind, modes_adjoint s2, ok_bind, hz, ok_bind, hr, ok_bind]
  have : forwardModes e.fmt p1.grid p1.kForward = forwardModes e.fmt p2.grid p2.kForward := by
    unfold forwardModes
    rw [k2, m2.energies, m2.cells]
    refine if_congr Iff.rfl (modes_congr fun g _ i hi n => ?_) rfl
    rw [hfl]
  rw [this]

theorem ads_fails {base : Text} {want : List Input.Plot} (hk : o.kind = .ads) (h : Sound p) (hE : o.energies = p.grid.energies) (hr : ∀ p', Calc.problem e.tools p [o] ≠ ok p') :
    (calculate e base want p [o] >>= fun x => ok x.plant) = Calc.problem e.tools p [o] := by
  unfold calculate
  unfold Calc.problem at hr ⊢
  dsimp only at hr ⊢
  rw [if_pos hk] at hr ⊢
  rw [if_pos hk]
  unfold ads
  unfold Calc.ads at hr ⊢
  cases h1 : Calc.diffusionSolve e.tools { o with kind := .diffusion, direction := .forward, modes := .all } p with
  | ok f =>
    obtain ⟨p1, x1⟩ := f
    obtain ⟨s1, m1, -, -⟩ := diffusionSolve_forward (o := { o with kind := .diffusion, direction := .forward, modes := .all }) h hE rfl h1
    rw [h1] at hr
    simp only [ok_bind] at hr ⊢
    rw [modes_forward s1]
    simp only [ok_bind]
    cases h2 : Calc.diffusionSolve e.tools { o with kind := .diffusion, direction := .adjoint, modes := .all } p1 with
    | ok a =>
      obtain ⟨p2, x2⟩ := a
      obtain ⟨s2, m2, k2, -⟩ := diffusionSolve_adjoint (o := { o with kind := .diffusion, direction := .adjoint, modes := .all }) s1 (hE.trans m1.energies.symm) rfl h2
      rw [h2] at hr
      simp only [ok_bind] at hr ⊢
      rw [modes_adjoint s2]
      simp only [ok_bind, bind_assoc]
      rw [drivenLines_fails (fun _ r => ok r) hr]
      cases Calc.driven p2 <;> rfl
    | _ => rfl
  | _ => rfl

end

end Verif.Output
