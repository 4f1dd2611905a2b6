import Verif.Output.Figures
import Verif.Output.ReportSpec
import Verif.Calc.Fields

/-!
# Helper lemmas for the output: the lines of the results and the figures in closed form
-/

namespace Verif.Output

open Verif Outcome

noncomputable section

open scoped Classical

variable {fmt : Fl → Text} {base : Text} {g : Mesh.Grid} {p : Calc.Plant}

/-! ### vectors -/

theorem reals_eq {x : Vec ℝ} {n : Nat} {f : Nat → ℝ} (hn : x.n = n) (h : ∀ i, i < n → x.v i = f i) : reals x = (List.range n).map fun i => Fl.fin (f i) := by
  unfold reals Vec.toList
  rw [hn, List.map_map]
  exact List.map_congr_left fun i hi => by rw [Function.comp, h i (List.mem_range.1 hi)]

theorem vectorLines_eq {x : Vec ℝ} {n : Nat} {f : Nat → ℝ} (hn : x.n = n) (h : ∀ i, i < n → x.v i = f i) :
    vectorLines fmt (reals x) = cellTexts fmt n f ++ [" ".toList] := by
  unfold vectorLines cellTexts
  rw [reals_eq hn h, List.map_map]
  rfl

theorem matrixLines_eq {x : Mat Fl} {r c : Nat} {f : Nat → Nat → Fl} (hr : x.r = r) (hc : x.c = c) (h : ∀ i, i < r → ∀ j, j < c → x.m i j = f i j) :
    matrixLines fmt x = groupTexts fmt r c f ++ [" ".toList] := by
  unfold matrixLines groupTexts
  rw [hr, hc]
  congr 1
  exact List.flatMap_congr fun i hi => List.map_congr_left fun j hj => by rw [h i (List.mem_range.1 hi) j (List.mem_range.1 hj)]

theorem extreme (x : Vec ℝ) (hn : 0 < x.n) (op : ℝ → ℝ → ℝ) (le : ℝ → ℝ → Prop) (hl : ∀ a b, le (op a b) a ∧ le (op a b) b) (ho : ∀ a b, op a b = a ∨ op a b = b)
    (ht : ∀ a b c, le a b → le b c → le a c) (hr : ∀ a, le a a) :
    ∃ m, (do
      let a ← x.get 0
      loop (fun i m => do
        let y ← x.get i
        ok (op m y)) x.n a) = ok m ∧ (∃ i, i < x.n ∧ x.v i = m) ∧ ∀ i, i < x.n → le m (x.v i) := by
  rw [Vec.get_ok hn, ok_bind]
  obtain ⟨m, e, h1, h2⟩ := loop_inv (body := fun i m => do
        let y ← x.get i
        ok (op m y)) (n := x.n) (s := x.v 0) (fun k m => (∃ i, i < x.n ∧ x.v i = m) ∧ ∀ i, i < k → le m (x.v i)) ⟨⟨0, hn, rfl⟩, fun i hi => absurd hi (by omega)⟩
    (fun k m hk ⟨⟨i, hi, e⟩, h⟩ => by
      refine ⟨op m (x.v k), by rw [Vec.get_ok hk, ok_bind], ?_, fun j hj => ?_⟩
      · rcases ho m (x.v k) with e' | e'
        · exact ⟨i, hi, e.trans e'.symm⟩
        · exact ⟨k, hk, e'.symm⟩
      · rcases Nat.lt_succ_iff_lt_or_eq.1 hj with hj | rfl
        · exact ht _ _ _ (hl _ _).1 (h j hj)
        · exact (hl _ _).2)
  exact ⟨m, e, h1, h2⟩

theorem greatest_ok {x : Vec ℝ} (hn : 0 < x.n) : ∃ m, greatest x = ok m ∧ (∃ i, i < x.n ∧ x.v i = m) ∧ ∀ i, i < x.n → x.v i ≤ m :=
  extreme x hn max (fun a b => b ≤ a) (fun a b => ⟨le_max_left _ _, le_max_right _ _⟩) (fun a b => by rcases max_choice a b with h | h <;> simp [h])
    (fun _ _ _ h h' => h'.trans h) (fun _ => le_rfl)

theorem least_ok {x : Vec ℝ} (hn : 0 < x.n) : ∃ m, least x = ok m ∧ (∃ i, i < x.n ∧ x.v i = m) ∧ ∀ i, i < x.n → m ≤ x.v i :=
  extreme x hn min (fun a b => a ≤ b) (fun a b => ⟨min_le_left _ _, min_le_right _ _⟩) (fun a b => by rcases min_choice a b with h | h <;> simp [h])
    (fun _ _ _ h h' => h.trans h') (fun _ => le_rfl)

/-! ### lines -/

theorem heatLines (hW : Whole p.grid) {o : Calc.Settings} (ho : o.kind = .heat) : resultLines fmt o p = ok (heatLog fmt p.grid) := by
  obtain ⟨x, e, n, v⟩ := Calc.temperatures_ok hW.mats
  unfold resultLines
  rw [ho]
  dsimp only
  rw [e, ok_bind, vectorLines_eq n v]
  rfl

theorem powerLines_ok (hW : Whole p.grid) (hc : 0 < p.grid.cells) : powerLines fmt p = ok (powerLog fmt p.grid.cells fun i => (p.grid.mats.v i).q) := by
  obtain ⟨x, e, n, v⟩ := Calc.heatSources_ok hW.mats
  obtain ⟨m, e1, ⟨i, hi, e2⟩, h⟩ := greatest_ok (x := x) (by omega)
  unfold powerLines powerLog
  rw [e, ok_bind, e1, ok_bind, vectorLines_eq n v]
  have : Numeric.isGreater m 0 ↔ ∃ i, i < p.grid.cells ∧ 10 / 2 ^ 52 < (p.grid.mats.v i).q := by
    unfold Numeric.isGreater Numeric.tol
    constructor
    · intro hm
      exact ⟨i, by omega, by rw [← v i (by omega), e2]; linarith⟩
    · rintro ⟨j, hj, hq⟩
      have := h j (by omega)
      rw [v j hj] at this
      linarith
  by_cases hm : Numeric.isGreater m 0
  · rw [if_pos hm, if_pos (this.1 hm)]
    rfl
  · rw [if_neg hm, if_neg (fun h => hm (this.2 h))]

/-- the modes as the loops collect them -/
theorem allModes_ok {k : List Fl} {x : Mesh.Box Fl} {title unit : String} {y : Nat → Nat → Nat → Fl} {a b : Nat} (ha : x.a = a) (hb : x.b = b) (hc : x.c = k.length)
    (hv : ∀ i, i < a → ∀ j, j < b → ∀ n, n < k.length → x.v i j n = y i j n) {t u : Text} (ht : t = title.toList ++ " ".toList) (hu : u = " ".toList ++ unit.toList) :
    allModes fmt t u k x = ok (modesLog fmt title unit a b k y) := by
  subst ht hu
  have hstep : ∀ n, n < k.length → modeLines fmt (title.toList ++ " ".toList) (" ".toList ++ unit.toList) k x n =
      ok (modeLog fmt title unit a b (k.getD n (.fin 0)) n fun g i => y g i n) := by
    intro n hn
    unfold modeLines Calc.at?
    rw [List.getElem?_eq_getElem hn]
    dsimp only
    rw [ok_bind, matrixLines_eq (r := a) (c := b) (f := fun g i => y g i n) ha hb (fun i hi j hj => hv i hi j hj n hn)]
    unfold modeLog digits
    rw [List.getD_eq_getElem?_getD, List.getElem?_eq_getElem hn]
    simp
  unfold allModes modesLog
  rw [hc]
  exact loop_ok (fun n => (List.range n).flatMap fun n => modeLog fmt title unit a b (k.getD n (.fin 0)) n fun g i => y g i n) rfl (fun n hn => by
    rw [hstep n hn, ok_bind, List.range_succ, List.flatMap_append]
    simp)

theorem forwardBox (hW : Whole g) (hS : Stocked g) : Mesh.GivesBox (Mesh.fluxes g) g.energies g.cells g.nForward fun e i n => (g.mats.v i).flux.m e n := by
  unfold Mesh.fluxes
  rcases hS.forward with h0 | h
  · rw [h0]
    unfold Mesh.modeBox
    have : loop (fun m (x : Mesh.Box Fl) => do
        let mat ← g.mats.get m
        loop (fun k => loop (fun i x => do
          let y ← mat.flux.get i k
          x.set i m k y) g.energies) 0 x) g.cells ⟨g.energies, g.cells, 0, fun _ _ _ => .fin 0⟩ = ok ⟨g.energies, g.cells, 0, fun _ _ _ => .fin 0⟩ :=
      loop_ok (fun _ => (⟨g.energies, g.cells, 0, fun _ _ _ => .fin 0⟩ : Mesh.Box Fl)) rfl fun i hi => by
        rw [Vec.get_ok (by rw [hW.mats]; exact hi), ok_bind]
        rfl
    exact ⟨_, this, rfl, rfl, rfl, fun i _ j _ k hk => absurd hk (by omega)⟩
  · exact Mesh.modeBox_ok hW.mats.ge fun m hm => ⟨(h m hm).1, (h m hm).2, fun _ _ _ _ => rfl⟩

theorem adjointBox (hW : Whole g) (hS : Stocked g) : Mesh.GivesBox (Mesh.adjoints g) g.energies g.cells g.nAdjoint fun e i n => (g.mats.v i).adj.m e n := by
  unfold Mesh.adjoints
  rcases hS.adjoint with h0 | h
  · rw [h0]
    unfold Mesh.modeBox
    have : loop (fun m (x : Mesh.Box Fl) => do
        let mat ← g.mats.get m
        loop (fun k => loop (fun i x => do
          let y ← mat.adj.get i k
          x.set i m k y) g.energies) 0 x) g.cells ⟨g.energies, g.cells, 0, fun _ _ _ => .fin 0⟩ = ok ⟨g.energies, g.cells, 0, fun _ _ _ => .fin 0⟩ :=
      loop_ok (fun _ => (⟨g.energies, g.cells, 0, fun _ _ _ => .fin 0⟩ : Mesh.Box Fl)) rfl fun i hi => by
        rw [Vec.get_ok (by rw [hW.mats]; exact hi), ok_bind]
        rfl
    exact ⟨_, this, rfl, rfl, rfl, fun i _ j _ k hk => absurd hk (by omega)⟩
  · exact Mesh.modeBox_ok hW.mats.ge fun m hm => ⟨(h m hm).1, (h m hm).2, fun _ _ _ _ => rfl⟩

theorem head_factor {k : List Fl} (h : k ≠ []) : Eigen.kFactor k = ok (k.getD 0 (.fin 0)) := by
  cases k with
  | nil => exact absurd rfl h
  | cons a l => rfl

/-- the lines of a calculation of the neutron flux -/
theorem forwardLines (hW : Whole p.grid) (hS : Stocked p.grid) (hc : 0 < p.grid.cells) (hk : p.kForward ≠ []) (hn : p.grid.nForward = p.kForward.length) {o : Calc.Settings}
    (ho : o.kind = .transport ∨ o.kind = .diffusion ∧ o.direction = .forward) :
    ∃ y z, eigenLines fmt o p = ok y ∧ resultLines fmt o p = ok z ∧ z = fluxLog fmt p.grid p.kForward ∧ y ++ z = forwardLog fmt p.grid p.kForward := by
  have hlen : 0 < p.kForward.length := List.length_pos_iff.2 hk
  have hm := hS.forward.resolve_left (by omega)
  obtain ⟨X, e1, a1, b1, c1, v1⟩ := forwardBox hW hS
  have hall := allModes_ok (fmt := fmt) (title := "Neutron Flux") (unit := "[1/(cm2*s)]:") (t := "Neutron Flux ".toList) (u := " [1/(cm2*s)]:".toList) a1 b1 (c1.trans hn)
    (fun i hi j hj n hn' => v1 i hi j hj n (by omega)) (by decide) (by decide)
  obtain ⟨F, e2, r2, c2, v2⟩ := Mesh.firstModes_ok (M := p.grid) (read := fun m => m.flux) (f := fun e i => (p.grid.mats.v i).flux.m e 0) hW.mats.ge
    (fun m hm' => ⟨(hm m hm').1, by have := (hm m hm').2; omega, fun _ _ => rfl⟩)
  have hfund : fundamentalLines fmt .forward p = ok (factorLog fmt (p.kForward.getD 0 (.fin 0)) ::
      block "Fundamental Neutron Flux [1/(cm2*s)]:" (groupTexts fmt p.grid.energies p.grid.cells fun e i => (p.grid.mats.v i).flux.m e 0)) := by
    unfold fundamentalLines
    dsimp only
    rw [head_factor hk, ok_bind]
    unfold Mesh.fundamentals
    rw [e2, ok_bind, matrixLines_eq r2 c2 v2]
    rfl
  have hpow := powerLines_ok (fmt := fmt) hW hc
  have heig : eigenLines fmt o p = ok (if 1 < p.kForward.length then
      modesLog fmt "Neutron Flux" "[1/(cm2*s)]:" p.grid.energies p.grid.cells p.kForward fun e i n => (p.grid.mats.v i).flux.m e n else []) := by
    unfold eigenLines
    rcases ho with ho | ⟨ho, hd⟩
    · rw [ho]
      dsimp only
      rw [e1, ok_bind, c1, hn]
      by_cases h1 : 1 < p.kForward.length
      · rw [if_neg (by omega), if_pos h1, hall]
      · rw [if_pos (by omega), if_neg h1]
    · rw [ho, hd]
      dsimp only
      unfold diffusionModes
      dsimp only
      rw [e1, ok_bind]
      by_cases h1 : 1 < p.kForward.length
      · rw [if_pos h1, if_pos h1, hall]
      · rw [if_neg h1, if_neg h1]
  refine ⟨_, _, heig, (?_ : _ = ok (factorLog fmt (p.kForward.getD 0 (.fin 0)) ::
      block "Fundamental Neutron Flux [1/(cm2*s)]:" (groupTexts fmt p.grid.energies p.grid.cells fun e i => (p.grid.mats.v i).flux.m e 0) ++
      powerLog fmt p.grid.cells fun i => (p.grid.mats.v i).q)), rfl, ?_⟩
  · unfold resultLines
    rcases ho with ho | ⟨ho, hd⟩
    · rw [ho]
      dsimp only
      rw [hfund, ok_bind, hpow, ok_bind]
    · rw [ho, hd]
      dsimp only
      rw [hfund, ok_bind, hpow, ok_bind]
  · rfl

/-- the lines of a calculation of the adjoint flux -/
theorem adjointLines (hW : Whole p.grid) (hS : Stocked p.grid) (hc : 0 < p.grid.cells) (hk : p.kAdjoint ≠ []) (hn : p.grid.nAdjoint = p.kAdjoint.length) {o : Calc.Settings}
    (ho : o.kind = .diffusion) (hd : o.direction = .adjoint) :
    ∃ y z, eigenLines fmt o p = ok y ∧ resultLines fmt o p = ok z ∧ z = importanceLog fmt p.grid p.kAdjoint ∧ y ++ z = adjointLog fmt p.grid p.kAdjoint := by
  have hlen : 0 < p.kAdjoint.length := List.length_pos_iff.2 hk
  have hm := hS.adjoint.resolve_left (by omega)
  obtain ⟨X, e1, a1, b1, c1, v1⟩ := adjointBox hW hS
  have hall := allModes_ok (fmt := fmt) (title := "Adjoint Flux") (unit := "[arbitrary]:") (t := "Adjoint Flux ".toList) (u := " [arbitrary]:".toList) a1 b1 (c1.trans hn)
    (fun i hi j hj n hn' => v1 i hi j hj n (by omega)) (by decide) (by decide)
  obtain ⟨F, e2, r2, c2, v2⟩ := Mesh.firstModes_ok (M := p.grid) (read := fun m => m.adj) (f := fun e i => (p.grid.mats.v i).adj.m e 0) hW.mats.ge
    (fun m hm' => ⟨(hm m hm').1, by have := (hm m hm').2; omega, fun _ _ => rfl⟩)
  have hpow := powerLines_ok (fmt := fmt) hW hc
  refine ⟨(if 1 < p.kAdjoint.length then
      modesLog fmt "Adjoint Flux" "[arbitrary]:" p.grid.energies p.grid.cells p.kAdjoint fun e i n => (p.grid.mats.v i).adj.m e n else []), _, ?_, (?_ : _ = ok (factorLog fmt (p.kAdjoint.getD 0 (.fin 0)) ::
      block "Fundamental Adjoint Flux [arbitrary]:" (groupTexts fmt p.grid.energies p.grid.cells fun e i => (p.grid.mats.v i).adj.m e 0) ++
      powerLog fmt p.grid.cells fun i => (p.grid.mats.v i).q)), rfl, ?_⟩
  · unfold eigenLines
    rw [ho, hd]
    dsimp only
    unfold diffusionModes
    dsimp only
    rw [e1, ok_bind]
    by_cases h1 : 1 < p.kAdjoint.length
    · rw [if_pos h1, if_pos h1, hall]
    · rw [if_neg h1, if_neg h1]
  · unfold resultLines
    rw [ho, hd]
    dsimp only
    unfold fundamentalLines
    dsimp only
    rw [head_factor hk, ok_bind]
    unfold Mesh.fundamentalAdjoints
    rw [e2, ok_bind, ok_bind, hpow, ok_bind, matrixLines_eq r2 c2 v2]
    rfl
  · rfl

/-! ### figures -/

theorem middles_ok (hW : Whole g) : ∃ x, Mesh.middlePoints g = ok x ∧ x.toList = middles g := by
  obtain ⟨X, e2, n2, v2⟩ := loop_fill (fun i => (g.bounds.v i + g.bounds.v (i + 1)) / 2) g.cells 0 (fun i x => do
    let y ← g.bounds.get i
    let z ← g.bounds.get (i + 1)
    x.set i ((y + z) / 2)) (fun i t hi _ => by rw [Vec.get_ok (by rw [hW.bounds]; omega), ok_bind, Vec.get_ok (by rw [hW.bounds]; omega), ok_bind])
  refine ⟨X, by unfold Mesh.middlePoints; rw [hW.bounds, predIdx_ok (by omega), ok_bind, Nat.add_sub_cancel]; exact e2, ?_⟩
  unfold Vec.toList middles
  rw [n2]
  exact List.map_congr_left fun i hi => v2 i (List.mem_range.1 hi)

theorem vanishing_iff {x : Vec ℝ} {n : Nat} {f : Nat → ℝ} (hn : x.n = n) (h : ∀ i, i < n → x.v i = f i) {m : ℝ} (h1 : ∃ i, i < x.n ∧ x.v i = m) (h2 : ∀ i, i < x.n → m ≤ x.v i) :
    Numeric.isEqual m 0 ↔ Vanishing n f := by
  unfold Numeric.isEqual Numeric.tol Vanishing
  obtain ⟨i, hi, e⟩ := h1
  have hi' : i < n := by omega
  constructor
  · intro hm
    refine ⟨i, hi', ?_, fun j hj => ?_⟩
    · rw [← h i hi', e]
      simpa using hm
    · rw [← h i hi', ← h j hj, e]
      exact h2 j (by omega)
  · rintro ⟨j, hj, h3, h4⟩
    have a := h4 i hi'
    have b := h2 j (by omega)
    rw [h j hj] at b
    rw [← h i hi', e] at a
    rw [show m = f j by linarith]
    simpa using h3

theorem plotVector_ok {x y : Vec ℝ} {k : Input.Plot} {name axis : String} {f : Nat → ℝ} (hc : 0 < g.cells) (hx : x.toList = middles g) (hn : y.n = g.cells)
    (h : ∀ i, i < g.cells → y.v i = f i) (hname : plotName k = name.toList) (haxis : plotAxis k = axis.toList) :
    plotVector base x y k = ok (if Vanishing g.cells f then [] else [cellFigure base name axis g f]) := by
  obtain ⟨m, e1, h1, h2⟩ := least_ok (x := y) (by omega)
  unfold plotVector
  rw [e1, ok_bind]
  have := vanishing_iff hn h h1 h2
  by_cases hm : Numeric.isEqual m 0
  · rw [if_pos hm, if_pos (this.1 hm)]
  · rw [if_neg hm, if_neg (fun h => hm (this.2 h)), hname, haxis, hx, reals_eq hn h]
    rfl

theorem plotModes_ok {x : Vec ℝ} {y : Mesh.Box Fl} {k : Input.Plot} {name axis : String} {n : Nat} {f : Nat → Nat → Nat → Fl} (hx : x.toList = middles g) (ha : y.a = g.energies)
    (hb : y.b = g.cells) (hc : y.c = n) (h : ∀ i, i < g.energies → ∀ j, j < g.cells → ∀ k, k < n → y.v i j k = f i j k)
    (hname : plotName k = name.toList) (haxis : plotAxis k = axis.toList) :
    plotModes base x y k = ok (fluxFigures base name axis g n f) := by
  unfold plotModes fluxFigures
  rw [hc]
  by_cases h0 : n = 0
  · rw [if_pos h0, if_pos h0]
  · rw [if_neg h0, if_neg h0, ha]
    congr 1
    refine List.map_congr_left fun e he => ?_
    unfold groupFigure groupFile modeCurves digits
    rw [hname, haxis, hx, hb]
    congr 1
    refine List.map_congr_left fun m hm => ?_
    congr 1
    refine List.map_congr_left fun i hi => ?_
    have := List.mem_range.1 hm
    exact h e (List.mem_range.1 he) i (List.mem_range.1 hi) m (by omega)

/-- without total fluxes there is nothing to be drawn -/
theorem plotTotals_ok {small : List Fl → Fl} (hs : ∀ l, l ≠ [] → (∀ x ∈ l, x = .fin 0) → small l = .fin 0) (hW : Whole g) (hc : 0 < g.cells) (he : 0 < g.energies)
    (ht : ∀ i, i < g.cells → (g.mats.v i).total.n = 0) (x : Vec ℝ) : (Mesh.totals g >>= fun y => plotMatrix small base x y .totalFlux) = ok [] := by
  have : Mesh.totals g = ok ⟨g.energies, g.cells, fun _ _ => .fin 0⟩ := by
    unfold Mesh.totals
    refine loop_ok (fun _ => (⟨g.energies, g.cells, fun _ _ => .fin 0⟩ : Mat Fl)) rfl fun i hi => ?_
    rw [Vec.get_ok (by rw [hW.mats]; exact hi), ok_bind]
    unfold Mesh.copyTotal
    rw [if_neg (by simp [ht i hi])]
  rw [this, ok_bind]
  unfold plotMatrix
  rw [if_pos ⟨he, hc⟩, if_pos]
  unfold isZero
  rw [hs]
  · show |(0 : ℝ)| < Numeric.tol
    rw [abs_zero]
    unfold Numeric.tol
    norm_num
  · intro h
    have : (Fl.fin 0) ∈ Calc.entries (⟨g.energies, g.cells, fun _ _ => .fin 0⟩ : Mat Fl) := by
      unfold Calc.entries
      simp only [List.mem_flatMap, List.mem_range, List.mem_map]
      exact ⟨0, he, 0, hc, trivial⟩
    rw [h] at this
    cases this
  · intro x hx
    unfold Calc.entries at hx
    simp only [List.mem_flatMap, List.mem_map] at hx
    obtain ⟨-, -, -, -, rfl⟩ := hx
    rfl

/-- what is needed to draw the total fluxes: nothing to be drawn -/
structure NoTotals (small : List Fl → Fl) (g : Mesh.Grid) : Prop where
  least : ∀ l, l ≠ [] → (∀ x ∈ l, x = Fl.fin 0) → small l = .fin 0
  groups : 0 < g.energies
  empty : ∀ i, i < g.cells → (g.mats.v i).total.n = 0

theorem plot_ok {small : List Fl → Fl} (hW : Whole g) (hS : Stocked g) (hc : 0 < g.cells) {k : Input.Plot} (ht : k = .totalFlux → NoTotals small g) :
    plot small base g k = ok (figuresFor base g k) := by
  obtain ⟨x, e, hx⟩ := middles_ok hW
  unfold plot
  rw [e, ok_bind]
  cases k
  · dsimp only
    obtain ⟨X, e1, a1, b1, c1, v1⟩ := forwardBox hW hS
    rw [e1, ok_bind]
    exact plotModes_ok hx a1 b1 c1 v1 rfl rfl
  · dsimp only
    obtain ⟨X, e1, a1, b1, c1, v1⟩ := adjointBox hW hS
    rw [e1, ok_bind]
    exact plotModes_ok hx a1 b1 c1 v1 rfl rfl
  · dsimp only
    obtain ⟨h1, h2, h3⟩ := ht rfl
    exact plotTotals_ok h1 hW hc h2 h3 x
  · dsimp only
    obtain ⟨y, e1, n1, v1⟩ := Calc.temperatures_ok hW.mats
    rw [e1, ok_bind]
    exact plotVector_ok hc hx n1 v1 rfl rfl
  · dsimp only
    obtain ⟨y, e1, n1, v1⟩ := Calc.heatSources_ok hW.mats
    rw [e1, ok_bind]
    exact plotVector_ok hc hx n1 v1 rfl rfl

theorem plots_ok {small : List Fl → Fl} (hW : Whole g) (hS : Stocked g) (hc : 0 < g.cells) {want : List Input.Plot} (ht : .totalFlux ∈ want → NoTotals small g) :
    plots small base g want = ok (allFigures base g want) := by
  have key : ∀ k, plotIf small base g want k = ok (if k ∈ want then figuresFor base g k else []) := by
    intro k
    unfold plotIf
    by_cases hk : k ∈ want
    · rw [if_pos hk, if_pos hk]
      exact plot_ok hW hS hc fun e => ht (e ▸ hk)
    · rw [if_neg hk, if_neg hk]
  unfold plots allFigures
  rw [key, ok_bind, key, ok_bind, key, ok_bind, key, ok_bind, key, ok_bind]
  simp [List.append_assoc]

theorem plots_none {small : List Fl → Fl} : plots small base g [] = ok [] := rfl

end

end Verif.Output
