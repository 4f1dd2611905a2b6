import Verif.Calc.HeatRun
import Verif.Calc.Props
import Mathlib.Analysis.SpecialFunctions.Integrals.Basic

/-! # Properties of heat calculations on the reactor -/

namespace Verif.Calc

open Verif Outcome Finset Mesh

noncomputable section

open scoped Classical

variable {c : Nat → Vec ℝ} {AL BL CL AR BR CR m : ℝ} {tl : Tools} {o : Settings} {p p' : Plant}

theorem problem_heat (ho : o.kind = .heat) : problem tl p [o] = (do let r ← heatSolve tl o p; ok r.1) := (C37_one o).1 ho

/-! ### C75: heat calculations from beginning to end -/

/-- **C75.** A heat calculation on a sensible body with heat sources that are not negative: there is a sequence of temperatures, starting with
those of the reactor, each of them the solution of the heat equations with the conductivities at the temperatures before, none below `m`.
The calculation stores the first of them that differs from the one before by less than the accuracy everywhere, if there is one within the
limit of passes, and changes nothing else. If there is none, the program terminates with an error (with the largest `int` as limit, the
counter overflows). In the first pass the comparison is with one degree, see `C75_false`. -/
theorem C75_run (ho : o.kind = .heat) (hc : Conducting p.grid c o.bc AL BL CL AR BR CR m) (hlin : LinSolves tl.lin)
    (hq : ∀ i, i < p.grid.cells → 0 ≤ heat p i) (hT : ∀ i, i < p.grid.cells → m ≤ temp p i) :
    ∃ t : Nat → Nat → ℝ, (∀ i, t 0 i = temp p i) ∧ (∀ j, Pass p.grid c o.bc (t j) (t (j + 1))) ∧
      (∀ j i, i < p.grid.cells → m ≤ t j i) ∧
      (∀ J : Nat, (J : Int) < o.maxIter → Calm p.grid.cells o.acc t J → (∀ k, k < J → ¬ Calm p.grid.cells o.acc t k) →
        ∃ g', problem tl p [o] = ok { p with grid := g' } ∧ Heated p.grid (t (J + 1)) g') ∧
      ((∀ k : Nat, (k : Int) < o.maxIter → ¬ Calm p.grid.cells o.acc t k) →
        problem tl p [o] = if o.maxIter = 2147483647 then ub else exit) := by
  obtain ⟨t, h0, hp, hlow⟩ := passes_exist hc hq hT
  obtain ⟨k1, k2⟩ := heatSolve_char hc hlin hq (fun i _ => h0 i) hp hlow
  refine ⟨t, h0, hp, hlow, fun J hJ hcalm hno => ?_, fun hno => ?_⟩
  · obtain ⟨g', old, e, hg, -⟩ := k1 J hJ hcalm hno
    exact ⟨g', by rw [problem_heat ho, e, ok_bind], hg⟩
  · rw [problem_heat ho, k2 hno]
    unfold notConverged
    split_ifs <;> rfl

/-- **C75, in words of heat conduction.** What a heat calculation returns, on every mesh, is what the program takes for the steady temperature field for
conductivities taken at some temperatures `s` (and the steady field itself, if the errors of the equations do no harm), none of it
below `m`; these temperatures agree with the result within the accuracy, unless the
very first field happens to lie within the accuracy of one degree (which cannot be if `m` is at least one plus the accuracy). -/
theorem C75_steady (ho : o.kind = .heat) (hc : Conducting p.grid c o.bc AL BL CL AR BR CR m) (hlin : LinSolves tl.lin)
    (hq : ∀ i, i < p.grid.cells → 0 ≤ heat p i) (hT : ∀ i, i < p.grid.cells → m ≤ temp p i)
    (hrun : problem tl p [o] = ok p') :
    (∃ g', p' = { p with grid := g' } ∧ Heated p.grid (temp p') g') ∧ (∀ i, i < p.grid.cells → m ≤ temp p' i) ∧
      ∃ s d, HeatOn p.grid c o.bc s d ∧ Conducted d AL BL CL AR BR CR (temp p') ∧
        (Heat.Harmless d.cells d.size.v d.k.v → Steady d AL BL CL AR BR CR (temp p')) ∧
        ((∀ i, i < p.grid.cells → |temp p' i - s i| < o.acc) ∨
          (∀ i, i < p.grid.cells → s i = temp p i) ∧ ∀ i, i < p.grid.cells → |temp p' i - 1| < o.acc) ∧
        (1 + o.acc ≤ m → ∀ i, i < p.grid.cells → |temp p' i - s i| < o.acc) := by
  obtain ⟨t, h0, hp, hlow, k1, k2⟩ := C75_run ho hc hlin hq hT
  by_cases hex : ∃ k : Nat, (k : Int) < o.maxIter ∧ Calm p.grid.cells o.acc t k
  · obtain ⟨hk, hcalm⟩ := Nat.find_spec hex
    obtain ⟨g', e, hg⟩ := k1 (Nat.find hex) hk hcalm (fun k hk' hc' => Nat.find_min hex hk' ⟨by omega, hc'⟩)
    rw [hrun] at e
    cases e
    have ht : ∀ i, i < p.grid.cells → t (Nat.find hex + 1) i = temp { p with grid := g' } i := fun i hi => by
      show _ = (g'.mats.v i).T
      rw [hg.mats i hi]
    obtain ⟨d, T, rhs, on, e, hS⟩ := hp (Nat.find hex)
    have hS' : Heat.Solves T rhs p.grid.cells (temp { p with grid := g' }) := by
      intro i hi
      rw [← hS i hi]
      exact sum_congr rfl (fun j hj => by rw [ht j (mem_range.1 hj)])
    refine ⟨⟨g', rfl, hg.congr ht⟩, fun i hi => by rw [← ht i hi]; exact hlow _ i hi, t (Nat.find hex), d, on,
      (conducted_of_solves hc on e hS').1, (conducted_of_solves hc on e hS').2, ?_, ?_⟩
    · cases hJ : Nat.find hex with
      | zero =>
        rw [hJ] at hcalm ht
        exact Or.inr ⟨fun i _ => h0 i, fun i hi => by rw [← ht i hi]; exact hcalm i hi⟩
      | succ J =>
        rw [hJ] at hcalm ht
        exact Or.inl (fun i hi => by rw [← ht i hi]; exact hcalm i hi)
    · intro hm i hi
      cases hJ : Nat.find hex with
      | zero =>
        rw [hJ] at hcalm ht
        have h1 := hcalm 0 (by have := hc.two; omega)
        have h2 := hlow 1 0 (by have := hc.two; omega)
        have h3 := (abs_lt.1 h1).2
        linarith
      | succ J =>
        rw [hJ] at hcalm ht
        rw [← ht i hi]
        exact hcalm i hi
  · rw [k2 (fun k hk hcalm => hex ⟨k, hk, hcalm⟩)] at hrun
    split_ifs at hrun <;> cases hrun

/-- **C75, constant conductivities.** If the conductivities do not depend on the temperature, two passes suffice: the calculation returns the solution of
the heat equations, whatever the initial temperatures, the accuracy (if positive) and the limit (if at least two). -/
theorem C75_constant (ho : o.kind = .heat) (hc : Conducting p.grid c o.bc AL BL CL AR BR CR m) (hlin : LinSolves tl.lin)
    (hq : ∀ i, i < p.grid.cells → 0 ≤ heat p i) (hT : ∀ i, i < p.grid.cells → m ≤ temp p i)
    (hk : ∀ i, i < p.grid.cells → ∀ x y, Numeric.polyValue (c i).n (c i).v x = Numeric.polyValue (c i).n (c i).v y)
    (hacc : 0 < o.acc) (hmax : 2 ≤ o.maxIter) :
    ∃ p', problem tl p [o] = ok p' ∧ ∀ s d T rhs, HeatOn p.grid c o.bc s d → Heat.system d = ok (T, rhs) →
      Heat.Solves T rhs p.grid.cells (temp p') ∧ Conducted d AL BL CL AR BR CR (temp p') ∧
        (Heat.Harmless d.cells d.size.v d.k.v → Steady d AL BL CL AR BR CR (temp p')) := by
  obtain ⟨t, h0, hp, hlow, k1, k2⟩ := C75_run ho hc hlin hq hT
  have hsame : ∀ j i, i < p.grid.cells → t (j + 1) i = t 1 i := fun j i hi =>
    pass_unique hc (fun i hi => hk i hi _ _) (hp 0) (hp j) i hi
  have h1 : Calm p.grid.cells o.acc t 1 := fun i hi => by
    rw [hsame 1 i hi, sub_self, abs_zero]
    exact hacc
  have hex : ∃ k, Calm p.grid.cells o.acc t k := ⟨1, h1⟩
  have hle : Nat.find hex ≤ 1 := Nat.find_min' hex h1
  obtain ⟨g', e, hg⟩ := k1 (Nat.find hex) (by omega) (Nat.find_spec hex) (fun k hk' => Nat.find_min hex hk')
  have hd : ∀ s d T rhs, HeatOn p.grid c o.bc s d → Heat.system d = ok (T, rhs) →
      Heat.Solves T rhs p.grid.cells (temp { p with grid := g' }) := by
    intro s d T rhs on es
    have ha : Heat.Admissible d AL BL AR BR := ⟨hc.AL_nonneg, hc.BL_nonneg, hc.AR_nonneg, hc.BR_nonneg, by rw [on.geom]; exact hc.left,
      hc.right, by rw [on.geom]; exact hc.tied⟩
    obtain ⟨T', rhs', e', ⟨x, hx, -⟩, -⟩ := Heat.C47_extremum on.physical (by rw [on.bc]; exact hc.boundaries) ha
    rw [es] at e'
    cases e'
    rw [on.cells] at hx
    have hx' := pass_unique hc (fun i hi => hk i hi _ _) (hp 0) ⟨d, T, rhs, on, es, hx⟩
    intro i hi
    rw [← hx i hi]
    refine sum_congr rfl (fun j hj => ?_)
    rw [mem_range] at hj
    rw [hx' j hj, ← hsame (Nat.find hex) j hj]
    show T.m i j * (g'.mats.v j).T = _
    rw [hg.mats j hj]
  exact ⟨_, e, fun s d T rhs on es => ⟨hd s d T rhs on es, conducted_of_solves hc on es (hd s d T rhs on es)⟩⟩

/-- A linear solver as assumed. -/
def exLin (T : Mat ℝ) (b : List ℝ) : Nat → ℝ :=
  if h : ∃ t, Heat.Solves T ⟨b.length, fun i => b.getD i 0⟩ T.r t then h.choose else fun _ => 0

theorem exLin_solves : LinSolves exLin := by
  rintro n T b hr hc hb ⟨t, ht, -⟩
  have hv : ∀ i, i < n → b.toList.getD i 0 = b.v i := by
    intro i hi
    rw [Vec.toList, List.getD_eq_getElem?_getD, List.getElem?_map, List.getElem?_range (by omega)]
    rfl
  have h : ∃ t, Heat.Solves T ⟨b.toList.length, fun i => b.toList.getD i 0⟩ T.r t := by
    refine ⟨t, ?_⟩
    rw [hr]
    intro i hi
    rw [ht i hi]
    exact (hv i hi).symm
  unfold exLin
  rw [dif_pos h]
  have hs := h.choose_spec
  generalize h.choose = x at hs
  rw [hr] at hs
  intro i hi
  exact (hs i hi).trans (hv i hi)

/-- Library functions for the examples. -/
def exTools (num : Solve.Numerics) : Tools := ⟨num, exLin, exBig, fun _ => Vec.const 0 0, fun _ => 0, fun _ => 0⟩

/-- A slab of two cells of one metre at `T` degrees, with conductivity law `k` and ten watts per cubic metre. -/
def exBar (T : ℝ) (k : Vec ℝ) : Grid where
  geom := .slab
  bounds := ⟨3, fun i => i⟩
  cells := 2
  energies := 2
  nForward := 1
  nAdjoint := 1
  mats := ⟨2, fun _ => { exMat T with q := 10, kLaw := some k }⟩

/-- The left face is insulated, the right one is kept at one degree; accuracy `1/2`. -/
def exBarSettings : Settings :=
  ⟨.heat, 1 / 2, 10, 1, Vec.const 0 0, ⟨3, fun i => if i = 0 then 1 else if i = 1 then 0 else 1⟩, 0, .forward, .fundamental⟩

theorem exBar_even (T : ℝ) (k : Vec ℝ) : ∀ i, i < (exBar T k).cells → (exBar T k).bounds.v (i + 1) - (exBar T k).bounds.v i = 1 := fun i _ => by
  show ((i + 1 : ℕ) : ℝ) - i = 1
  push_cast
  ring

theorem exBar_conducting (T : ℝ) {k : Vec ℝ} (hk : ∀ x, 1 ≤ x → 0 < Numeric.polyValue k.n k.v x) :
    Conducting (exBar T k) (fun _ => k) exBarSettings.bc 0 1 0 1 0 1 1 where
  shaped := ⟨fun h => (by cases h), rfl, fun h => absurd rfl h, fun i _ => by
    show (i : ℝ) < ((i + 1 : ℕ) : ℝ)
    push_cast
    linarith⟩
  mats_n := rfl
  two := le_rfl
  laws _ _ := rfl
  pos _ _ := hk
  boundaries := Or.inl ⟨by simp [exBarSettings, Vec.toList, List.range_succ], rfl, rfl, rfl⟩
  AL_nonneg := le_rfl
  BL_nonneg := by norm_num
  AR_nonneg := by norm_num
  BR_nonneg := le_rfl
  left _ := by norm_num
  right := by norm_num
  tied := Or.inl one_pos
  lowLeft _ := by norm_num
  lowRight := by norm_num

/-- Constant conductivity: all hypotheses hold. -/
example (num : Solve.Numerics) : ∃ p', problem (exTools num) (exPlant (exBar 20 (constLaw 3))) [exBarSettings] = ok p' := by
  obtain ⟨p', e, -⟩ := C75_constant (tl := exTools num) (p := exPlant (exBar 20 (constLaw 3))) (o := exBarSettings) rfl
    (exBar_conducting 20 (k := constLaw 3) (fun x _ => by norm_num [Numeric.polyValue, constLaw])) exLin_solves
    (fun i _ => by norm_num [heat, exPlant, exBar]) (fun i _ => by norm_num [temp, exPlant, exBar, exMat])
    (fun i _ x y => by simp [Numeric.polyValue, constLaw]) (by norm_num [exBarSettings]) (by decide)
  exact ⟨p', e⟩

/-- **C75 fails for the first pass.** A slab at 100 degrees whose conductivity is the temperature, insulated on the left and kept at one degree on
the right. The first field happens to lie within the accuracy of one degree and is accepted, though its conductivities are taken at 100
degrees: with those at the returned temperatures, less than a fiftieth of the heat produced leaves the slab. -/
theorem C75_false (num : Solve.Numerics) : ∃ (tl : Tools) (p p' : Plant) (o : Settings) (c : Nat → Vec ℝ), tl.num = num ∧ LinSolves tl.lin ∧
    o.kind = .heat ∧ Conducting p.grid c o.bc 0 1 0 1 0 1 1 ∧ (∀ i, i < p.grid.cells → 0 ≤ heat p i) ∧
    (∀ i, i < p.grid.cells → 1 ≤ temp p i) ∧ p.grid.geom = .slab ∧ (∀ i, i < p.grid.cells → p.grid.bounds.v (i + 1) - p.grid.bounds.v i = 1) ∧ 0 < o.acc ∧ problem tl p [o] = ok p' ∧
    ∀ d JL JR, HeatOn p.grid c o.bc (temp p') d → Heat.OutFlow 0 1 0 (d.k.v 0) 1 1 (temp p' 0) JL →
      Heat.OutFlow 1 0 1 (d.k.v 1) 1 1 (temp p' 1) JR → 0 < JL + JR ∧ 50 * (JL + JR) < totalHeat p := by
  have hk : ∀ x, Numeric.polyValue 2 (fun i => if i = 0 then 0 else 1) x = x := fun x => by simp [Numeric.polyValue, sum_range_succ]
  have hc := exBar_conducting 100 (k := ⟨2, fun i => if i = 0 then 0 else 1⟩) (fun x hx => by dsimp only; rw [hk]; linarith)
  have hq : ∀ i, i < (exPlant (exBar 100 ⟨2, fun i => if i = 0 then 0 else 1⟩)).grid.cells → 0 ≤
      heat (exPlant (exBar 100 ⟨2, fun i => if i = 0 then 0 else 1⟩)) i := fun i _ => by norm_num [heat, exPlant, exBar]
  have hT : ∀ i, i < (exPlant (exBar 100 ⟨2, fun i => if i = 0 then 0 else 1⟩)).grid.cells → 1 ≤
      temp (exPlant (exBar 100 ⟨2, fun i => if i = 0 then 0 else 1⟩)) i := fun i _ => by norm_num [temp, exPlant, exBar, exMat]
  have hvol : ∀ i, volume (exBar 100 ⟨2, fun i => if i = 0 then 0 else 1⟩) i = 1 := fun i => by
    show ∫ _ in ((i : ℕ) : ℝ)..((i + 1 : ℕ) : ℝ), (1 : ℝ) = 1
    simp
  obtain ⟨t, h0, hp, -, k1, -⟩ := C75_run (tl := exTools num) (o := exBarSettings) rfl hc exLin_solves hq hT
  obtain ⟨d, on, J, I, s1, s2, -, s3, s5, s4, s6⟩ := pass_conducted hc (hp 0)
  have d1 : d.geom = .slab := on.geom
  have d2 : d.cells = 2 := on.cells
  have d3 : ∀ i, i < 2 → d.k.v i = 100 := fun i hi => by
    rw [on.k i hi, h0 i]
    exact hk 100
  rw [if_pos d1, d3 0 (by norm_num)] at s1
  have d4 : ∀ i, i < 2 → d.size.v i = 1 := fun i hi => by
    rw [on.physical.size_eq i (by rw [d2]; exact hi), on.radii]
    exact exBar_even _ _ i hi
  rw [d2] at s2 s3 s4 s5 s6
  rw [d3 1 (by norm_num), d4 1 (by norm_num), on.surf 2 (le_refl 2)] at s2
  rw [d3 1 (by norm_num), d4 1 (by norm_num), on.surf 1 (by decide)] at s3
  rw [d3 1 (by norm_num), if_neg (by norm_num), d4 0 (by norm_num), on.surf 1 (by decide)] at s5
  have eI : I = J 1 := by
    rw [Heat.fourier_iff (by norm_num) (by norm_num) (by norm_num) (by norm_num)] at s3 s5
    exact s5.trans s3.symm
  rw [eI] at s6
  have a0 := s4 0 (by norm_num)
  have a1 := s6
  beta_reduce at a0 a1
  rw [on.q 0 (by decide), on.vol 0 (by decide)] at a0
  rw [on.q 1 (by decide), on.vol 1 (by decide)] at a1
  change _ = 10 * volume (exBar 100 ⟨2, fun i => if i = 0 then 0 else 1⟩) 0 at a0
  change _ = 10 * volume (exBar 100 ⟨2, fun i => if i = 0 then 0 else 1⟩) 1 at a1
  rw [hvol] at a0 a1
  obtain ⟨x, x1, x2⟩ := s1
  obtain ⟨y, y1, y2⟩ := s2
  obtain ⟨z, z1, z2⟩ := s3
  have ar : ∀ r, area (exBar 100 ⟨2, fun i => if i = 0 then 0 else 1⟩).geom r = 1 := fun _ => rfl
  rw [ar] at y1 z1 z2
  norm_num at a0 a1 x2 y2 y1 z1 z2
  have t1 : t 1 1 = 11 / 10 := by linarith
  have t0 : t 1 0 = 12 / 10 := by linarith
  have hcalm : Calm 2 exBarSettings.acc t 0 := by
    intro i hi
    have : i = 0 ∨ i = 1 := by omega
    rcases this with rfl | rfl
    · rw [t0]; norm_num [exBarSettings, abs_lt]
    · rw [t1]; norm_num [exBarSettings, abs_lt]
  obtain ⟨g', e, hg⟩ := k1 0 (by decide) hcalm (fun k hk' => absurd hk' (Nat.not_lt_zero k))
  have e0 : temp { exPlant (exBar 100 ⟨2, fun i => if i = 0 then 0 else 1⟩) with grid := g' } 0 = 12 / 10 := by
    rw [← t0]
    show (g'.mats.v 0).T = _
    rw [hg.mats 0 (by decide)]
  have e1 : temp { exPlant (exBar 100 ⟨2, fun i => if i = 0 then 0 else 1⟩) with grid := g' } 1 = 11 / 10 := by
    rw [← t1]
    show (g'.mats.v 1).T = _
    rw [hg.mats 1 (by decide)]
  refine ⟨exTools num, _, _, exBarSettings, _, rfl, exLin_solves, rfl, hc, hq, hT, rfl, exBar_even _ _, by norm_num [exBarSettings], e, ?_⟩
  intro d JL JR on hL hR
  obtain ⟨u, u1, u2⟩ := hL
  obtain ⟨v, v1', v2⟩ := hR
  rw [on.k 1 (by decide), e1] at v1'
  change JR = 1 * (Numeric.polyValue 2 (fun i => if i = 0 then 0 else 1) (11 / 10) * _) at v1'
  rw [hk] at v1'
  have tot : totalHeat (exPlant (exBar 100 ⟨2, fun i => if i = 0 then 0 else 1⟩)) = 20 := by
    show ∑ i ∈ range 2, (10 : ℝ) * volume (exBar 100 ⟨2, fun i => if i = 0 then 0 else 1⟩) i = 20
    simp only [hvol, sum_range_succ, range_zero, sum_empty]
    norm_num
  rw [tot]
  norm_num at u2 v1' v2
  have hv : v = 1 := by linarith
  rw [hv] at v1'
  norm_num at v1'
  rw [v1', u2]
  norm_num

end

end Verif.Calc
