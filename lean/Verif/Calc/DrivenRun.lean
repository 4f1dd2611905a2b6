import Verif.Calc.Balance
import Verif.Calc.NeutronRun

/-! # The two criticality calculations that precede the calculation of the flux of a source -/

namespace Verif.Calc

open Verif Outcome Finset Mesh

noncomputable section

open scoped Classical

/-- a list of modes, all numbers -/
def modeList (N n : Nat) (k : Nat → ℝ) (φ : Nat → Nat → ℝ) : List (Fl × Vec Fl) :=
  (List.range N).map (fun m => (Fl.fin (k m), ⟨n, fun p => .fin (φ m p)⟩))

variable {N : Nat} {k : Nat → ℝ} {φ ψ : Nat → Nat → ℝ}

theorem modeList_get {n m : Nat} (hm : m < N) : (modeList N n k φ)[m]? = some (Fl.fin (k m), ⟨n, fun p => .fin (φ m p)⟩) := by
  simp [modeList, hm]

theorem store_list (c E : Nat) : ∃ st, Solve.store c E (modeList N (c * E) k φ) = ok st ∧ st.modes = N ∧
    (∀ n, n < N → st.k[n]? = some (.fin (k n))) ∧ ∀ j i n, n < N → st.flux j i n = .fin (φ n (i + j * c)) := by
  have h : ∀ m ∈ modeList N (c * E) k φ, c * E ≤ m.2.n := by
    intro m hm
    obtain ⟨a, -, rfl⟩ := List.mem_map.1 hm
    exact le_rfl
  refine ⟨_, if_pos h, ?_, ?_, ?_⟩
  · simp [modeList]
  · intro n hn
    simp [modeList, hn]
  · intro j i n hn
    dsimp only
    rw [modeList_get hn]

theorem heat_list {n : Nat} (hN : 0 < N) : Solve.heatModes (modeList N n k φ) = ok [⟨n, φ 0⟩] := by
  obtain ⟨N, rfl⟩ : ∃ m, N = m + 1 := ⟨N - 1, by omega⟩
  unfold modeList
  rw [List.range_succ_eq_map, List.map_cons]
  have h : Solve.finite ⟨n, fun p => .fin (φ 0 p)⟩ = ok ⟨n, φ 0⟩ := if_pos (fun i _ => ⟨by simp, by simp⟩)
  unfold Solve.heatModes
  dsimp only
  rw [h, ok_bind]

variable {tl : Tools} {o : Settings} {p : Plant} {d : Diffusion.Data} {aL aR : ℝ}

theorem forward_modes (hS : Shaped p.grid) (hF : Furnished p.grid) (hc : ∀ i, i < p.grid.cells → Complete (p.grid.mats.v i) p.grid.energies)
    (hD : ∀ i, i < p.grid.cells → p.grid.energies ≤ (p.grid.mats.v i).diff.length) (hE : o.energies = p.grid.energies)
    (ho : o.direction = .forward)
    (hd : ∀ d, DiffusionOn p.grid o.albedo (temp p) d → Solve.Sound d aL aR ∧ ∑ i ∈ range d.cells, Solve.fissions d (φ 0) i ≠ 0 ∧
      ∀ M F, Eigen.Entries (d.cells * d.energies) (Solve.loss d aL aR) M → Eigen.Entries (d.cells * d.energies) (Solve.fission d) F →
        M.r = d.cells * d.energies →
        Solve.eigenmodes tl.num o.options M F = ok (modeList N (d.cells * d.energies) k φ)) (hN : 0 < N) :
    ∃ q old, diffusionSolve tl o p = ok (q, old) ∧ q.grid.nForward = N ∧ (∀ n, n < N → q.kForward[n]? = some (.fin (k n))) ∧
      ∀ i, i < p.grid.cells → (q.grid.mats.v i).flux.r = p.grid.energies ∧ (q.grid.mats.v i).flux.c = N ∧
        ∀ e n, e < p.grid.energies → n < N → (q.grid.mats.v i).flux.m e n = .fin (φ n (i + e * p.grid.cells)) := by
  obtain ⟨old, eo, no, vo⟩ := heatSources_ok hF.mats_n
  obtain ⟨d, ed, on⟩ := diffusionData_ok hS hF hc hD o.albedo
  obtain ⟨V, eV, nV, vV, hV⟩ := volumes_m hS
  obtain ⟨S, hf, hlib⟩ := hd d on
  obtain ⟨M, F, sq, eM, eF, hrun⟩ := Solve.forward_run S
  obtain ⟨st, es, s1, s2, s3⟩ := store_list (N := N) (k := k) (φ := φ) d.cells d.energies
  obtain ⟨x, ex⟩ := Solve.heat_exists (power := p.power) (volM := V) S.wf (by rw [on.cells]; exact hV) (y := φ 0) hf
    (x := ⟨d.cells * d.energies, φ 0⟩) rfl (fun _ _ => rfl)
  have hx := (Solve.heat_of S.wf (by rw [on.cells]; exact hV) (by have := S.cells; omega) (y := φ 0)
    (x := ⟨d.cells * d.energies, φ 0⟩) rfl (fun _ _ => rfl) ex).1.1
  obtain ⟨g1, e1, b1, f1, a1, h1⟩ := setFluxes_ok hF (t := ⟨p.grid.energies, p.grid.cells, st.modes, st.flux⟩) rfl
  have b1' : SameBody p.grid { g1 with nForward := st.modes } := ⟨b1.geom, b1.bounds, b1.cells, b1.energies, b1.mats_n, b1.mats⟩
  obtain ⟨g2, e2, h2⟩ := setHeatSources_ok (b1'.furnished hF).mats_n (t := x) (by rw [hx, on.cells]; exact b1.cells.symm)
  have hm2 : ∀ i, i < p.grid.cells → g2.mats.v i = { g1.mats.v i with q := x.v i } := fun i hi =>
    h2.mats i (by show i < g1.cells; rw [b1.cells]; exact hi)
  refine ⟨{ p with grid := g2, kForward := st.k }, old, ?_, ?_, s2, fun i hi => ?_⟩
  · unfold diffusionSolve
    rw [eo, ok_bind, hE, ed, ok_bind, eV, ok_bind]
    have hl := hlib M F eM eF sq.1
    unfold Settings.options at hl ⊢
    rw [ho] at hl ⊢
    rw [hrun, hl, ok_bind]
    unfold Solve.setForward
    rw [es, ok_bind, heat_list hN, ok_bind, ex, ok_bind, ok_bind]
    dsimp only
    unfold writeForward
    dsimp only
    rw [e1, ok_bind, e2, ok_bind, ok_bind]
  · show g2.nForward = N
    rw [h2.nForward]
    exact s1
  · show (g2.mats.v i).flux.r = _ ∧ (g2.mats.v i).flux.c = _ ∧ ∀ e n, _ → _ → (g2.mats.v i).flux.m e n = _
    rw [hm2 i hi]
    obtain ⟨-, -, -, r1, r2, r3⟩ := h1 i hi
    refine ⟨r1, r2.trans s1, fun e n he hn => ?_⟩
    dsimp only
    rw [r3 e he n (by show n < st.modes; rw [s1]; exact hn)]
    show st.flux e i n = _
    rw [s3 e i n hn, on.cells]

theorem adjoint_modes (hS : Shaped p.grid) (hF : Furnished p.grid) (hc : ∀ i, i < p.grid.cells → Complete (p.grid.mats.v i) p.grid.energies)
    (hD : ∀ i, i < p.grid.cells → p.grid.energies ≤ (p.grid.mats.v i).diff.length) (hE : o.energies = p.grid.energies)
    (ho : o.direction = .adjoint)
    (hd : ∀ d, DiffusionOn p.grid o.albedo (temp p) d → Solve.Sound d aL aR ∧
      ∀ M F, Eigen.Entries (d.cells * d.energies) (fun p q => Solve.loss d aL aR q p) M →
        Eigen.Entries (d.cells * d.energies) (fun p q => Solve.fission d q p) F → M.r = d.cells * d.energies →
        Solve.eigenmodes tl.num o.options M F = ok (modeList N (d.cells * d.energies) k ψ)) :
    ∃ q old, diffusionSolve tl o p = ok (q, old) ∧ q.grid.nAdjoint = N ∧ q.grid.nForward = p.grid.nForward ∧ q.kForward = p.kForward ∧
      ∀ i, i < p.grid.cells → (q.grid.mats.v i).flux = (p.grid.mats.v i).flux ∧ (q.grid.mats.v i).adj.r = p.grid.energies ∧
        (q.grid.mats.v i).adj.c = N ∧
        ∀ e n, e < p.grid.energies → n < N → (q.grid.mats.v i).adj.m e n = .fin (ψ n (i + e * p.grid.cells)) := by
  obtain ⟨old, eo, no, vo⟩ := heatSources_ok hF.mats_n
  obtain ⟨d, ed, on⟩ := diffusionData_ok hS hF hc hD o.albedo
  obtain ⟨V, eV, nV, vV, hV⟩ := volumes_m hS
  obtain ⟨S, hlib⟩ := hd d on
  obtain ⟨M, F, sq, eM, eF, hrun⟩ := Solve.adjoint_run S
  obtain ⟨st, es, s1, s2, s3⟩ := store_list (N := N) (k := k) (φ := ψ) d.cells d.energies
  obtain ⟨g1, e1, b1, f1, a1, h1⟩ := setAdjoints_ok hF (t := ⟨p.grid.energies, p.grid.cells, st.modes, st.flux⟩) rfl
  refine ⟨{ p with grid := { g1 with nAdjoint := st.modes }, kAdjoint := st.k }, old, ?_, s1, f1, rfl, fun i hi => ?_⟩
  · unfold diffusionSolve
    rw [eo, ok_bind, hE, ed, ok_bind, eV, ok_bind]
    have hl := hlib M F eM eF sq.1
    unfold Settings.options at hl ⊢
    rw [ho] at hl ⊢
    rw [hrun, hl, ok_bind]
    unfold Solve.setAdjoint
    rw [es, ok_bind, ok_bind]
    dsimp only
    unfold writeAdjoint
    dsimp only
    rw [e1, ok_bind, ok_bind]
  · obtain ⟨-, -, r0, r1, r2, r3⟩ := h1 i hi
    refine ⟨r0, r1, r2.trans s1, fun e n he hn => ?_⟩
    show (g1.mats.v i).adj.m e n = _
    rw [r3 e he n (by show n < st.modes; rw [s1]; exact hn)]
    show st.flux e i n = _
    rw [s3 e i n hn, on.cells]

/-- The two criticality calculations store what the library returns. -/
theorem ads_reaches (hS : Shaped p.grid) (hF : Furnished p.grid) (hc : ∀ i, i < p.grid.cells → Complete (p.grid.mats.v i) p.grid.energies)
    (hD : ∀ i, i < p.grid.cells → p.grid.energies ≤ (p.grid.mats.v i).diff.length) (hE : o.energies = p.grid.energies)
    (hd : ∀ d, DiffusionOn p.grid o.albedo (temp p) d → Solve.Sound d aL aR ∧ ∑ i ∈ range d.cells, Solve.fissions d (φ 0) i ≠ 0 ∧
      (∀ M F, Eigen.Entries (d.cells * d.energies) (Solve.loss d aL aR) M → Eigen.Entries (d.cells * d.energies) (Solve.fission d) F →
        M.r = d.cells * d.energies →
        Solve.eigenmodes tl.num ⟨.forward, .all, o.maxIter, o.acc⟩ M F = ok (modeList N (d.cells * d.energies) k φ)) ∧
      ∀ M F, Eigen.Entries (d.cells * d.energies) (fun p q => Solve.loss d aL aR q p) M →
        Eigen.Entries (d.cells * d.energies) (fun p q => Solve.fission d q p) F → M.r = d.cells * d.energies →
        Solve.eigenmodes tl.num ⟨.adjoint, .all, o.maxIter, o.acc⟩ M F = ok (modeList N (d.cells * d.energies) k ψ)) (hN : 0 < N) :
    ∃ q, ads tl o p = driven q ∧ Modal q N k φ ψ ∧ Tied p.grid q.grid ∧ q.source = p.source := by
  obtain ⟨x, ox, e1, x1, x2, x3⟩ := forward_modes (tl := tl) (o := { o with kind := .diffusion, direction := .forward, modes := .all })
    (aL := aL) (aR := aR) (k := k) hS hF hc hD hE rfl (fun d on => ⟨(hd d on).1, (hd d on).2.1, (hd d on).2.2.1⟩) hN
  obtain ⟨t1, s1⟩ := diffusionSolve_tied e1
  have hc' : ∀ i, i < x.grid.cells → Complete (x.grid.mats.v i) x.grid.energies := fun i hi => by
    rw [t1.1.cells] at hi
    rw [t1.1.energies]
    exact Complete.same (t1.1.mats i hi) (hc i hi)
  have hD' : ∀ i, i < x.grid.cells → x.grid.energies ≤ (x.grid.mats.v i).diff.length := fun i hi => by
    rw [t1.1.cells] at hi
    rw [t1.1.energies, (t1.1.mats i hi).diff]
    exact hD i hi
  obtain ⟨y, oy, e2, y1, y2, y3, y4⟩ := adjoint_modes (tl := tl) (o := { o with kind := .diffusion, direction := .adjoint, modes := .all })
    (p := x) (aL := aL) (aR := aR) (k := k) (ψ := ψ) (N := N) (t1.1.shaped hS) (t1.1.furnished hF) hc' hD' (hE.trans t1.1.energies.symm) rfl
    (fun d on => by
      have on' : DiffusionOn p.grid o.albedo (temp p) d := by
        have t2 : Tied x.grid p.grid := ⟨⟨t1.1.geom.symm, t1.1.bounds.symm, t1.1.cells.symm, t1.1.energies.symm, t1.1.mats_n.symm, fun i hi => by
          rw [t1.1.cells] at hi
          have h := t1.1.mats i hi
          exact ⟨h.name.symm, h.energies.symm, h.kLaw.symm, h.tot.symm, h.fiss.symm, h.diff.symm, h.scatt.symm, h.nu.symm, h.chi.symm⟩⟩,
          fun i hi => (t1.2 i (by rw [t1.1.cells] at hi; exact hi)).symm⟩
        exact DiffusionOn.tied t2 on
      exact ⟨(hd d on').1, (hd d on').2.2.2⟩)
  obtain ⟨t2, s2⟩ := diffusionSolve_tied e2
  refine ⟨y, ?_, ⟨y2.trans x1, y1, fun n hn => by rw [y3]; exact x2 n hn, fun i hi => ?_, fun i hi => ?_⟩, t1.trans t2, s2.trans s1⟩
  · unfold ads
    rw [e1, ok_bind]
    dsimp only
    rw [e2, ok_bind]
  · rw [t2.1.cells, t1.1.cells] at hi
    obtain ⟨a1, a2, a3⟩ := x3 i hi
    rw [(y4 i (by rw [t1.1.cells]; exact hi)).1, t2.1.energies, t1.1.energies, t2.1.cells, t1.1.cells]
    exact ⟨a1.ge, a2.ge, a3⟩
  · rw [t2.1.cells] at hi
    obtain ⟨-, a1, a2, a3⟩ := y4 i hi
    rw [t2.1.energies, t2.1.cells]
    exact ⟨a1.ge, a2.ge, a3⟩

/-! ### a library that returns given modes -/

theorem mode_given {n i : Nat} {V : Nat → Nat → ℝ} (h0 : 0 ≤ ∑ p ∈ range n, V p i) (h1 : ∑ p ∈ range n, |V p i| = 1) :
    Eigen.mode n V i = ⟨n, fun p => .fin (V p i)⟩ := by
  unfold Eigen.mode
  have e1 : Fl.sumTo (fun p => Fl.fin (V p i)) n = .fin (∑ p ∈ range n, V p i) := Fl.sumTo_of_fin (fun _ _ => rfl)
  have e2 : Fl.sumTo (fun p => Fl.abs (Fl.fin (V p i))) n = .fin (∑ p ∈ range n, |V p i|) := Fl.sumTo_of_fin (fun _ _ => rfl)
  rw [e1, e2, h1]
  dsimp only
  rw [if_neg (not_lt.2 h0)]
  congr 1
  funext p
  rw [Fl.mul_of_fin, Fl.div_of_fin one_ne_zero, one_mul, div_one]

theorem keep_given {n : Nat} {V : Nat → Nat → ℝ} (hk : ∀ m, m < N → Numeric.tol < k m) (h0 : ∀ i, i < N → 0 ≤ ∑ p ∈ range n, V p i)
    (h1 : ∀ i, i < N → ∑ p ∈ range n, |V p i| = 1) :
    Eigen.keep n V ((List.range N).map (fun m => (Fl.fin (k m), Fl.fin 0))) = modeList N n k (fun m p => V p m) := by
  unfold Eigen.keep modeList
  have hz : ∀ l : List Nat, l.zip l = l.map (fun x => (x, x)) := fun l => by
    induction l with
    | nil => rfl
    | cons a l ih => rw [List.zip_cons_cons, ih, List.map_cons]
  rw [List.zipIdx_map, List.filterMap_map, List.zipIdx_eq_zip_range', List.length_range, ← List.range_eq_range', hz, List.filterMap_map,
    ← List.filterMap_eq_map]
  refine List.filterMap_congr (fun m hm => ?_)
  have hm := List.mem_range.1 hm
  have hg : Eigen.flGreater (Fl.fin (k m)) (Fl.fin 0) := by
    show (0 : ℝ) + Numeric.tol < k m
    rw [zero_add]
    exact hk m hm
  simp only [Function.comp, Prod.map, id]
  rw [if_pos ⟨by simp, hg⟩, mode_given (h0 m hm) (h1 m hm)]

/-- A library that returns the modes `V` (columns) with factors `k`. -/
def givenLib (N : Nat) (k : Nat → ℝ) (V : Mat Fl → Mat Fl → Nat → Nat → ℝ) : Solve.Numerics :=
  ⟨fun _ _ _ => .fin 0, fun _ _ => (List.range N).map (fun m => (Fl.fin (k m), Fl.fin 0)), V, id⟩

theorem givenLib_modes {V : Mat Fl → Mat Fl → Nat → Nat → ℝ} {M F : Mat Fl} (hN : 0 < N) (hk : ∀ m, m < N → Numeric.tol < k m)
    (h0 : ∀ i, i < N → 0 ≤ ∑ p ∈ range M.r, V M F p i) (h1 : ∀ i, i < N → ∑ p ∈ range M.r, |V M F p i| = 1) {o : Solve.Options}
    (ho : o.modes = .all) : Solve.eigenmodes (givenLib N k V) o M F = ok (modeList N M.r k (fun m p => V M F p m)) := by
  unfold Solve.eigenmodes
  rw [ho]
  dsimp only
  unfold Eigen.generalizedEigenSolver Eigen.sortEigenmodes
  have hi : ¬ Eigen.hasImagValues ((givenLib N k V).evals M F) := by
    rintro ⟨z, hz, h⟩
    obtain ⟨m, -, rfl⟩ := List.mem_map.1 hz
    have : (0 : ℝ) + Numeric.tol < 0 := h
    rw [zero_add] at this
    exact absurd this (not_lt.2 Numeric.tol_pos.le)
  rw [if_neg hi]
  unfold Eigen.stdSort
  have e : Eigen.keep M.r ((givenLib N k V).evecs M F) ((givenLib N k V).evals M F) = modeList N M.r k (fun m p => V M F p m) :=
    keep_given hk h0 h1
  rw [e, if_neg, ok_bind]
  · obtain ⟨N, rfl⟩ : ∃ m, N = m + 1 := ⟨N - 1, by omega⟩
    show Eigen.ofModes (modeList (N + 1) M.r k (fun m p => V M F p m)) >>= _ = _
    unfold modeList
    rw [List.range_succ_eq_map, List.map_cons]
    rfl
  · rintro ⟨m, hm, h⟩
    obtain ⟨a, -, rfl⟩ := List.mem_map.1 hm
    cases h

end

end Verif.Calc
