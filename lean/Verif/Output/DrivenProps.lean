import Verif.Output.ReportDriven
import Verif.Output.ReportProps
import Verif.Input.DrivenProps

/-! # Properties of the report of a source-driven calculation -/

namespace Verif.Output

open Verif Outcome Input

noncomputable section

variable {e : Env} {disk : Text → Option (List Text)} {prog input output base : Text} {names raw lines : List Text} {p' : Calc.Plant} {g : Diffusion.Geom} {rs : List Region} {E : Nat}

/-! ### C95 -/

/-- **C95, partial.** A complete file for a source-driven calculation: the result of the program is that of the calculation alone, and if it comes to its end, the log shows exactly the
modes and the total fluxes of the reactor at the end. Missing: the figures the file asks for, of which none is drawn (`C95_false`). -/
theorem C95_partial (hs : Started e disk input output names base) (hd : disk input = some raw) (hraw : Stored raw lines) (hc : Clean e.lib lines) (hp : Proper lines)
    (hF : Full e.lib lines [.ads] g rs E) (hb : Blank e.plant) (a : Level) :
    ((main e [prog, input, output, a.word]).run (World.start disk)).2 = program e.lib e.tools (some raw) e.plant ∧
    ∀ p', ((main e [prog, input, output, a.word]).run (World.start disk)).2 = ok p' → ∃ ls, DrivenLog e.fmt p' ls ∧
      Logged e a output names (e.talk (some raw)) p' ls [] ((main e [prog, input, output, a.word]).run (World.start disk)) := by
  obtain ⟨r, hr, hl, hR⟩ := full_read hc hraw hp hF ⟨.ads, by simp, by simp [neutronics]⟩ hb
  rw [← hd] at hr
  have hw := work_eq hs hr
  obtain ⟨o, ho⟩ : ∃ o, r.solvers = [o] := by
    have := congrArg List.length hR.kinds
    rw [List.length_map] at this
    exact List.length_eq_one_iff.1 this
  have hok : o.kind = .ads := by
    have := hR.kinds
    rw [ho] at this
    exact (List.cons.inj this).1
  have hE : o.energies = r.plant.grid.energies := by
    rw [hR.energies]
    exact hR.groups o (by rw [ho]; simp) (by rw [hok]; simp [neutronics])
  have hprog : program e.lib e.tools (some raw) e.plant = Calc.problem e.tools r.plant r.solvers := by
    unfold program
    rw [← hd, hr, ok_bind]
  have key : ∀ q, Calc.problem e.tools r.plant r.solvers = ok q → ∃ ls, DrivenLog e.fmt q ls ∧ work e disk input = ok ⟨q, ls, []⟩ := by
    intro q hq
    rw [ho] at hq
    obtain ⟨ls, h1, h2⟩ := ads_report (base := base) (want := r.plots) hok hR.sound hE hq
    exact ⟨ls, h1, by rw [hw, ho, h2]⟩
  have hres : ((main e [prog, input, output, a.word]).run (World.start disk)).2 = program e.lib e.tools (some raw) e.plant := by
    rw [hprog, (main_word prog hs.free hs.apart a).result]
    by_cases hq : ∃ q, Calc.problem e.tools r.plant r.solvers = ok q
    · obtain ⟨q, hq⟩ := hq
      obtain ⟨ls, -, h⟩ := key q hq
      rw [h, ok_bind, hq]
    · rw [hw, ho]
      exact ads_fails hok hR.sound hE fun q hq' => hq ⟨q, by rw [ho]; exact hq'⟩
  refine ⟨hres, fun p' h => ?_⟩
  rw [hres, hprog] at h
  obtain ⟨ls, h1, h2⟩ := key p' h
  refine ⟨ls, h1, ?_⟩
  have := work_logged (prog := prog) hs a h2
  rw [hd] at this
  exact this

/-- **C95, figures.** What the program would draw if it drew the total fluxes of a source-driven calculation: one figure for each group with the total fluxes of that group in all cells, over
the middles of the cells. (`small` is the least of some numbers, as found by the library.) -/
theorem C95_totals {g : Mesh.Grid} {small : List Fl → Fl} (hs : ∀ l, l ≠ [] → small l ∈ l) (hW : Whole g) (hc : 0 < g.cells) (he : 0 < g.energies)
    (ht : ∀ i, i < g.cells → (g.mats.v i).total.n = g.energies) (hp : ∀ i, i < g.cells → ∀ h, h < g.energies → ∃ t : ℝ, (g.mats.v i).total.v h = .fin t ∧ 10 / 2 ^ 52 ≤ t) :
    plots small base g [.totalFlux] = ok ((List.range g.energies).map fun h =>
      groupFigure base "totalflux" "Total Flux [1/cm2/s]" g h [([], (List.range g.cells).map fun i => (g.mats.v i).total.v h)]) := by
  obtain ⟨x, ex, hx⟩ := middles_ok hW
  have hY : Mesh.Gives (Mesh.totals g) g.energies g.cells (fun h i => (g.mats.v i).total.v h) := by
    unfold Mesh.totals
    refine Mesh.columns g.energies g.cells _ _ _ rfl rfl (fun m hm => ?_)
    refine ⟨fun i x => do
      let z ← (g.mats.v m).total.get i
      x.set i m z, fun x => ?_, fun i hi x => ?_⟩
    · rw [Vec.get_ok (by rw [hW.mats]; exact hm), ok_bind]
      unfold Mesh.copyTotal
      rw [if_pos (by rw [ht m hm]; omega)]
    · dsimp only
      rw [Vec.get_ok (by rw [ht m hm]; exact hi), ok_bind]
  obtain ⟨Y, eY, hr, hcc, hv⟩ := hY
  have hz : ¬ isZero (small (Calc.entries Y)) := by
    have hne : Calc.entries Y ≠ [] := by
      intro h
      have : Y.m 0 0 ∈ Calc.entries Y := by
        unfold Calc.entries
        simp only [List.mem_flatMap, List.mem_range, List.mem_map]
        exact ⟨0, by omega, 0, by omega, rfl⟩
      rw [h] at this
      cases this
    have hm := hs _ hne
    generalize small (Calc.entries Y) = z at hm
    unfold Calc.entries at hm
    simp only [List.mem_flatMap, List.mem_range, List.mem_map] at hm
    obtain ⟨a, ha, b, hb, rfl⟩ := hm
    obtain ⟨t, h1, h2⟩ := hp b (by omega) a (by omega)
    rw [hv a (by omega) b (by omega)]
    dsimp only
    rw [h1]
    show ¬ |t| < Numeric.tol
    rw [not_lt]
    refine le_trans ?_ (le_abs_self t)
    unfold Numeric.tol
    norm_num at h2 ⊢
    linarith
  have hplot : plot small base g .totalFlux = ok ((List.range g.energies).map fun h =>
      groupFigure base "totalflux" "Total Flux [1/cm2/s]" g h [([], (List.range g.cells).map fun i => (g.mats.v i).total.v h)]) := by
    unfold plot
    rw [ex, ok_bind]
    dsimp only
    rw [eY, ok_bind]
    unfold plotMatrix
    rw [if_pos ⟨by omega, by omega⟩, if_neg hz, hr]
    congr 1
    refine List.map_congr_left fun h hh => ?_
    unfold groupFigure groupFile digits
    rw [hx, hcc]
    congr 3
    refine List.map_congr_left fun i hi => ?_
    exact hv h (List.mem_range.1 hh) i (List.mem_range.1 hi)
  unfold plots plotIf
  simp [hplot]

/-- two cells and two groups: two figures, of which the second shows 2 and 3 -/
example : ∃ g : Mesh.Grid, Whole g ∧ 0 < g.cells ∧ 0 < g.energies ∧ (∀ i, i < g.cells → (g.mats.v i).total.n = g.energies) ∧
    ∃ f : Figure, ∃ fs, plots (fun l => l.headD .nan) "bar".toList g [.totalFlux] = ok [f, fs] ∧ fs.curves = [([], [.fin 2, .fin 3])] := by
  let g : Mesh.Grid := { Mesh.exGrid .slab with
    cells := 2
    energies := 2
    bounds := ⟨3, fun i => i⟩
    mats := ⟨2, fun i => { (Mesh.exGrid .slab).mats.v 0 with total := ⟨2, fun h => .fin (1 + h + i)⟩ }⟩ }
  have hW : Whole g := ⟨rfl, rfl⟩
  have := C95_totals (base := "bar".toList) (g := g) (small := fun l => l.headD .nan) (fun l hl => by cases l; exact absurd rfl hl; exact List.mem_cons_self) hW two_pos two_pos
    (fun _ _ => rfl) (fun i _ h _ => ⟨1 + h + i, rfl, by
      have h1 := (Nat.cast_nonneg h : (0 : ℝ) ≤ h)
      have h2 := (Nat.cast_nonneg i : (0 : ℝ) ≤ i)
      norm_num
      linarith⟩)
  refine ⟨g, hW, two_pos, two_pos, fun _ _ => rfl, _, _, this, ?_⟩
  show [(([] : Text), [Fl.fin (1 + ((1 : ℕ) : ℝ) + ((0 : ℕ) : ℝ)), Fl.fin (1 + ((1 : ℕ) : ℝ) + ((1 : ℕ) : ℝ))])] = _
  norm_num

/-- The computer of the examples, with a library that returns the modes of the slab. -/
def drivenEnv : Env := { reportEnv adsLib with tools := Calc.exDrivenTools 2 Calc.exFactor Calc.exMode }

theorem drivenStarted : Started drivenEnv (reportDisk adsFile) "in/bar.txt".toList "out/bar.log".toList
    ["Input file: in/bar.txt".toList, "Output file: bar.log \n".toList] "bar".toList where
  free := ⟨rfl, Or.inr rfl⟩
  apart := by decide
  named := (reportStarted adsLib adsFile).named

/-- the hypotheses of `C95_partial` hold for the slab, and the program comes to its end -/
example : ∃ p' ls, DrivenLog drivenEnv.fmt p' ls ∧ Logged drivenEnv .err "out/bar.log".toList ["Input file: in/bar.txt".toList, "Output file: bar.log \n".toList]
    (drivenEnv.talk (some adsFile)) p' ls []
      ((main drivenEnv ["almost".toList, "in/bar.txt".toList, "out/bar.log".toList, Level.err.word]).run (World.start (reportDisk adsFile))) := by
  obtain ⟨h1, h2⟩ := C95_partial (prog := "almost".toList) drivenStarted (reportDisk_get _) adsStored (adsLib_clean _) adsProper ads_full (reportBlank adsLib) .err
  obtain ⟨p', h, -⟩ := ads_run drivenEnv.plant
  obtain ⟨ls, h3, h4⟩ := h2 p' (h1.trans h)
  exact ⟨p', ls, h3, h4⟩

/-- **C95 fails.** The slab asks for its fluxes to be drawn. The program comes to its end and draws nothing, although the reactor then holds two modes of which it would draw
figures after a diffusion calculation. -/
theorem C95_false : ∃ (e : Env) (disk : Text → Option (List Text)) (prog input output base : Text) (names raw lines : List Text) (want : List Plot) (p' : Calc.Plant) (a : Level),
    Started e disk input output names base ∧ disk input = some raw ∧ Stored raw lines ∧ Clean e.lib lines ∧ Proper lines ∧ Full e.lib lines [.ads] .slab adsRegions 1 ∧
    Blank e.plant ∧ Wanted lines want ∧ ((main e [prog, input, output, a.word]).run (World.start disk)).2 = ok p' ∧ p'.grid.nForward = 2 ∧
    allFigures base p'.grid want ≠ [] ∧ ((main e [prog, input, output, a.word]).run (World.start disk)).1.drawn = [] := by
  obtain ⟨h1, h2⟩ := C95_partial (prog := "almost".toList) drivenStarted (reportDisk_get _) adsStored (adsLib_clean _) adsProper ads_full (reportBlank adsLib) .err
  obtain ⟨p', h, hm, hc, hE⟩ := ads_run drivenEnv.plant
  obtain ⟨ls, h3, h4⟩ := h2 p' (h1.trans h)
  refine ⟨drivenEnv, _, _, _, _, _, _, _, _, [.neutronFlux, .totalFlux], p', .err, drivenStarted, reportDisk_get _, adsStored, adsLib_clean _, adsProper, ads_full, reportBlank adsLib,
    Or.inl ⟨_, _, saysB_card adsLib_sane adsCards.2.2.2.2.1, by simp, .plot (by simp [plotNames]) (.plot (by simp [plotNames]) .nil)⟩, h4.result, hm.forward, ?_, h4.drawn⟩
  simp [allFigures, figuresFor, fluxFigures, hm.forward, hE]

end

end Verif.Output
