import Verif.Output.ReportRead
import Verif.Output.Figures

/-! # Lemmas: reports of single and coupled calculations -/

namespace Verif.Output

open Verif Outcome Input

noncomputable section

variable {e : Env} {lines : List Text} {o o1 o2 : Calc.Settings} {p p' : Calc.Plant} {E : Nat} {fmt : Fl → Text}

/-- What the settings of a solver have to satisfy. -/
structure Fit (lines : List Text) (E : Nat) (o : Calc.Settings) : Prop where
  kind : o.kind = .transport ∨ o.kind = .diffusion ∨ o.kind = .heat
  groups : o.kind ∈ neutronics → o.energies = E
  direction : o.kind = .diffusion → ¬ Backward lines o.kind ∧ o.direction = .forward ∨ Backward lines o.kind ∧ o.direction = .adjoint
  modes : o.kind = .diffusion ∨ o.kind = .transport → o.modes ≠ .undefined

/-- There are results of the solver. -/
def Done (lines : List Text) (o : Calc.Settings) (p : Calc.Plant) : Prop :=
  o.kind = .heat ∨ Backward lines o.kind ∧ p.kAdjoint ≠ [] ∨ ¬ Backward lines o.kind ∧ p.kForward ≠ []

/-- The results of one reactor are still there in another one. -/
structure More (p p' : Calc.Plant) : Prop where
  sound : Sound p'
  same : Same p p'
  forward : p.kForward ≠ [] → p'.kForward ≠ []
  adjoint : p.kAdjoint ≠ [] → p'.kAdjoint ≠ []

theorem More.refl (h : Sound p) : More p p := ⟨h, Same.refl p, id, id⟩

theorem More.trans {p'' : Calc.Plant} (h : More p p') (h' : More p' p'') : More p p'' :=
  ⟨h'.sound, h.same.trans h'.same, fun x => h'.forward (h.forward x), fun x => h'.adjoint (h.adjoint x)⟩

theorem More.done (h : More p p') (hd : Done lines o p) : Done lines o p' :=
  hd.imp_right (Or.imp (And.imp_right h.adjoint) (And.imp_right h.forward))

theorem solve_more (hf : Fit lines E o) (h : Sound p) (hE : p.grid.energies = E) {a : Calc.Part Calc.Plant (Vec ℝ)} (ha : Calc.solver e.tools o = ok a) {x : Vec ℝ}
    (hr : a.solve p = ok (p', x)) : More p p' ∧ Done lines o p' := by
  unfold Calc.solver at ha
  rcases hf.kind with hk | hk | hk
  · rw [hk] at ha
    cases ha
    have hE' := hf.groups (by rw [hk]; simp [neutronics])
    obtain ⟨s, m, k, f⟩ := transportSolve_sound h (hE'.trans hE.symm) hr
    have f := f (hf.modes (Or.inr hk))
    exact ⟨⟨s, m, fun _ => f, fun h => k ▸ h⟩, Or.inr (Or.inr ⟨fun hB => by rw [hk] at hB; exact absurd hB.1 (by decide), f⟩)⟩
  · rw [hk] at ha
    cases ha
    have hE' := hf.groups (by rw [hk]; simp [neutronics])
    rcases hf.direction hk with ⟨hB, hd⟩ | ⟨hB, hd⟩
    · obtain ⟨s, m, k, f⟩ := diffusionSolve_forward h (hE'.trans hE.symm) hd hr
      have f := f (hf.modes (Or.inl hk))
      exact ⟨⟨s, m, fun _ => f, fun h => k ▸ h⟩, Or.inr (Or.inr ⟨hB, f⟩)⟩
    · obtain ⟨s, m, k, f⟩ := diffusionSolve_adjoint h (hE'.trans hE.symm) hd hr
      have f := f (hf.modes (Or.inl hk))
      exact ⟨⟨s, m, fun h => k ▸ h, fun _ => f⟩, Or.inr (Or.inl ⟨hB, f⟩)⟩
  · rw [hk] at ha
    cases ha
    obtain ⟨s, m, k, f⟩ := heatSolve_sound h hr
    exact ⟨⟨s, m, fun h => k ▸ h, fun h => f ▸ h⟩, Or.inl hk⟩

theorem relax_more (hf : Fit lines E o) (h : Sound p) {a : Calc.Part Calc.Plant (Vec ℝ)} (ha : Calc.solver e.tools o = ok a) {x : Vec ℝ} {w : ℝ}
    (hr : a.relax w p x = ok p') : More p p' := by
  unfold Calc.solver at ha
  rcases hf.kind with hk | hk | hk <;> rw [hk] at ha <;> cases ha
  · obtain ⟨s, m, k, f⟩ := powerRelax_sound h hr
    exact ⟨s, m, fun h => k ▸ h, fun h => f ▸ h⟩
  · obtain ⟨s, m, k, f⟩ := powerRelax_sound h hr
    exact ⟨s, m, fun h => k ▸ h, fun h => f ▸ h⟩
  · obtain ⟨s, m, k, f⟩ := heatRelax_sound h hr
    exact ⟨s, m, fun h => k ▸ h, fun h => f ▸ h⟩

theorem pass_more (hf : Fit lines E o) (h : Sound p) (hE : p.grid.energies = E) {a : Calc.Part Calc.Plant (Vec ℝ)} (ha : Calc.solver e.tools o = ok a) {w : ℝ} {i : Nat}
    {x : Calc.Param} (hr : Calc.partPass a w i p = ok (p', x)) : More p p' ∧ Done lines o p' := by
  unfold Calc.partPass at hr
  simp only [bind_eq_ok] at hr
  obtain ⟨⟨s, m⟩, h1, y, h2, q, h3, hr⟩ := hr
  cases hr
  obtain ⟨m1, d1⟩ := solve_more hf h hE ha h1
  unfold Calc.relaxPart at h3
  split at h3
  · have m2 := relax_more hf m1.sound ha h3
    exact ⟨m1.trans m2, m2.done d1⟩
  · cases h3
    exact ⟨m1, d1⟩

theorem loop_more {big : List Fl → Fl} {a b : Calc.Part Calc.Plant (Vec ℝ)} {w acc : ℝ} {limit : Int} (h1 : Fit lines E o1) (h2 : Fit lines E o2) (ha : Calc.solver e.tools o1 = ok a)
    (hb : Calc.solver e.tools o2 = ok b) {fuel iter n : Nat} {x y : Calc.Param} (h : Sound p) (hE : p.grid.energies = E)
    (hr : Calc.coupledLoop big a b w acc limit fuel iter x y p = ok (p', n)) : More p p' ∧ Done lines o1 p' ∧ Done lines o2 p' ∧ n < iter + fuel := by
  induction fuel generalizing iter x y p with
  | zero =>
    unfold Calc.coupledLoop Calc.notConverged at hr
    split at hr <;> cases hr
  | succ fuel ih =>
    unfold Calc.coupledLoop at hr
    simp only [bind_eq_ok] at hr
    obtain ⟨⟨q1, x1⟩, e1, ⟨q2, x2⟩, e2, z, e3, hr⟩ := hr
    obtain ⟨m1, d1⟩ := pass_more h1 h hE ha e1
    obtain ⟨m2, d2⟩ := pass_more h2 m1.sound (m1.same.energies.trans hE) hb e2
    split at hr
    · cases hr
      exact ⟨m1.trans m2, m2.done d1, d2, by omega⟩
    · obtain ⟨m3, d3, d4, hn⟩ := ih m2.sound ((m1.trans m2).same.energies.trans hE) hr
      exact ⟨(m1.trans m2).trans m3, d3, d4, by omega⟩

/-! ### lines -/

theorem part_lines (hf : Fit lines E o) (h : Sound p) (hd : Done lines o p) :
    ∃ y z, eigenLines fmt o p = ok y ∧ resultLines fmt o p = ok z ∧ z = partLog fmt lines o.kind p ∧ (o.kind ≠ .heat → y ++ z = criticalLog fmt lines o.kind p) := by
  by_cases hh : o.kind = .heat
  · refine ⟨[], _, by unfold eigenLines; rw [hh], heatLines h.whole hh, ?_, fun h => absurd hh h⟩
    unfold partLog
    rw [if_pos hh]
  · by_cases hB : Backward lines o.kind
    · have hk := hB.1
      have hdir : o.direction = .adjoint := ((hf.direction hk).resolve_left fun x => x.1 hB).2
      have hne := ((hd.resolve_left hh).resolve_right fun x => x.1 hB).2
      obtain ⟨y, z, e1, e2, e3, e4⟩ := adjointLines (fmt := fmt) h.whole h.stocked h.cells hne h.adjoint hk hdir
      refine ⟨y, z, e1, e2, ?_, fun _ => ?_⟩
      · unfold partLog
        rw [if_neg hh, if_pos hB, e3]
      · unfold criticalLog
        rw [if_pos hB, e4]
    · have hne := ((hd.resolve_left hh).resolve_left fun x => hB x.1).2
      obtain ⟨y, z, e1, e2, e3, e4⟩ := forwardLines (fmt := fmt) h.whole h.stocked h.cells hne h.forward (o := o) (by
        rcases hf.kind with hk | hk | hk
        · exact Or.inl hk
        · exact Or.inr ⟨hk, ((hf.direction hk).resolve_right fun x => hB x.1).2⟩
        · exact absurd hk hh)
      refine ⟨y, z, e1, e2, ?_, fun _ => ?_⟩
      · unfold partLog
        rw [if_neg hh, if_neg hB, e3]
      · unfold criticalLog
        rw [if_neg hB, e4]

theorem single_report {base : Text} {want : List Plot} (hf : Fit lines E o) (hh : o.kind ≠ .heat) (h : Sound p) (hE : p.grid.energies = E) (h0 : 0 < E)
    (ht : ∀ i, i < p.grid.cells → (p.grid.mats.v i).total.n = 0) (hs : LeastZero e.small) (hr : Calc.problem e.tools p [o] = ok p') :
    calculate e base want p [o] = ok ⟨p', criticalLog e.fmt lines o.kind p', allFigures base p'.grid want⟩ := by
  have hads : o.kind ≠ .ads := by rcases hf.kind with hk | hk | hk <;> rw [hk] <;> decide
  unfold Calc.problem at hr
  dsimp only at hr
  rw [if_neg hads] at hr
  unfold Calc.single at hr
  simp only [bind_eq_ok] at hr
  obtain ⟨a, ha, ⟨q, x⟩, hq, hr⟩ := hr
  cases hr
  obtain ⟨m, d⟩ := solve_more hf h hE ha hq
  obtain ⟨y, z, e1, e2, e3, e4⟩ := part_lines (fmt := e.fmt) hf m.sound d
  unfold calculate
  dsimp only
  rw [if_neg hads]
  unfold single
  rw [ha, ok_bind, hq, ok_bind]
  have : powerHistory e.fmt e.tools o p = ok [] := by
    unfold powerHistory
    rcases hf.kind with hk | hk | hk <;> rw [hk]
  rw [this, ok_bind, e1, ok_bind, e2, ok_bind, plots_ok m.sound.whole m.sound.stocked m.sound.cells (fun _ => ⟨hs, by rw [m.same.energies, hE]; exact h0, fun i hi => by
    rw [m.same.totals]; exact ht i (by rw [← m.same.cells]; exact hi)⟩), ok_bind, List.nil_append, e4 hh]

theorem double_report {base : Text} {want : List Plot} {o3 : Calc.Settings} (h1 : Fit lines E o1) (h2 : Fit lines E o2) (h3 : o3.kind = .coupled) (h : Sound p) (hE : p.grid.energies = E)
    (h0 : 0 < E) (ht : ∀ i, i < p.grid.cells → (p.grid.mats.v i).total.n = 0) (hs : LeastZero e.small) (hr : Calc.problem e.tools p [o1, o2, o3] = ok p') :
    ∃ n : Nat, 1 ≤ n ∧ (n : Int) ≤ o3.maxIter ∧
    calculate e base want p [o1, o2, o3] = ok ⟨p', coupledLog e.fmt lines o1.kind o2.kind n p', allFigures base p'.grid want ++ allFigures base p'.grid want⟩ := by
  have hc1 : o1.kind ≠ .coupled := by rcases h1.kind with hk | hk | hk <;> rw [hk] <;> decide
  have hc2 : o2.kind ≠ .coupled := by rcases h2.kind with hk | hk | hk <;> rw [hk] <;> decide
  have hcs : Calc.coupledSettings [o1, o2, o3] = ok o3 := by
    unfold Calc.coupledSettings
    simp [hc1, hc2, h3]
  unfold Calc.problem Calc.double at hr
  dsimp only at hr
  rw [hcs, ok_bind] at hr
  split at hr
  · rename_i hpos
    simp only [bind_eq_ok] at hr
    obtain ⟨a, ha, b, hb, ⟨q, n⟩, hq, hr⟩ := hr
    cases hr
    obtain ⟨m, d1, d2, hn⟩ := loop_more h1 h2 ha hb h hE hq
    obtain ⟨y1, z1, -, e1, f1, -⟩ := part_lines (fmt := e.fmt) h1 m.sound d1
    obtain ⟨y2, z2, -, e2, f2, -⟩ := part_lines (fmt := e.fmt) h2 m.sound d2
    have hpl := plots_ok (base := base) (want := want) m.sound.whole m.sound.stocked m.sound.cells (fun _ => ⟨hs, by rw [m.same.energies, hE]; exact h0, fun i hi => by
      rw [m.same.totals]; exact ht i (by rw [← m.same.cells]; exact hi)⟩)
    refine ⟨n + 1, by omega, by omega, ?_⟩
    unfold calculate double
    dsimp only
    rw [hcs, ok_bind, if_pos hpos, ha, ok_bind, hb, ok_bind, hq, ok_bind, e1, ok_bind, e2, ok_bind, hpl, ok_bind, ok_bind, f1, f2]
    rfl
  · cases hr

end

end Verif.Output
