import Verif.Heat.Model
import Verif.Heat.Spec
import Verif.Core.Writes
import Verif.Numeric.Lemmas
import Verif.Core.LinAlg
import Mathlib.Tactic.Linarith
import Mathlib.Tactic.Ring
import Mathlib.Tactic.FieldSimp
import Mathlib.Tactic.Positivity

/-! Closed form of the heat system. -/

namespace Verif.Heat

open Verif Outcome Numeric Finset

noncomputable section

/-- distance used at interface `i` -/
def dx (d : Data) (i : Nat) : ℝ :=
  if 1 ≤ i ∧ i + 1 < d.cells then 1 / 2 * (d.size.v i + d.size.v (i - 1)) else d.size.v i

theorem interSizes_ok {d : Data} (ph : Physical d) :
    ∃ x, interSizes d = ok x ∧ x.n = d.cells ∧ ∀ i < d.cells, x.v i = dx d i := by
  have h2 := ph.two; have hn := ph.size_n
  obtain ⟨x, e, hx, hv⟩ := loopFrom_inv (a := 1) (n := d.cells - 2) (s := d.size)
    (body := fun i (x : Vec ℝ) => do
      let h1 ← d.size.get i
      let h0 ← d.size.get (i - 1)
      x.set i (1 / 2 * (h1 + h0)))
    (fun i x => x.n = d.cells ∧ ∀ j, x.v j = if 1 ≤ j ∧ j < i then 1 / 2 * (d.size.v j + d.size.v (j - 1)) else d.size.v j)
    ⟨hn, fun j => by rw [if_neg (by omega)]⟩
    (by
      rintro i x h1 h3 ⟨hx, hv⟩
      refine ⟨⟨x.n, Function.update x.v i (1 / 2 * (d.size.v i + d.size.v (i - 1)))⟩, ?_, hx, ?_⟩
      · rw [Vec.get_ok (by omega), ok_bind, Vec.get_ok (by omega), ok_bind, Vec.set_ok (by omega)]
      · intro j
        by_cases hj : j = i
        · subst hj; simp; intro h; omega
        · simp only [Function.update_of_ne hj, hv j]
          by_cases hc : 1 ≤ j ∧ j < i
          · rw [if_pos hc, if_pos (by omega)]
          · rw [if_neg hc, if_neg (by omega)])
  refine ⟨x, e, hx, fun i hi => ?_⟩
  rw [hv i, dx]
  by_cases hc : 1 ≤ i ∧ i + 1 < d.cells
  · rw [if_pos hc, if_pos (by omega)]
  · rw [if_neg hc, if_neg (by omega)]

theorem dx_pos {d : Data} (ph : Physical d) {i : Nat} (hi : i < d.cells) : 0 < dx d i := by
  unfold dx
  have := ph.size_pos i hi
  split_ifs with h
  · have := ph.size_pos (i - 1) (by omega); positivity
  · exact this

/-- the conductivity the code uses between cells `i-1` and `i` inside the mesh -/
def kInter (d : Data) (i : Nat) : ℝ :=
  1 / ((1 - d.size.v (i - 1) / (d.size.v i + d.size.v (i - 1))) / d.k.v (i - 1) +
    d.size.v (i - 1) / (d.size.v i + d.size.v (i - 1)) / d.k.v i)

/-- conductivity times surface at the left face of cell `i` -/
def lam (d : Data) (i : Nat) : ℝ :=
  (if 1 ≤ i ∧ i + 1 < d.cells then kInter d i else d.k.v i) * d.surf.v i

theorem kInter_pos {d : Data} (ph : Physical d) {i : Nat} (h1 : 1 ≤ i) (hi : i < d.cells) : 0 < kInter d i := by
  have p1 := ph.size_pos i hi
  have p2 := ph.size_pos (i - 1) (by omega)
  have p3 := ph.k_pos i hi
  have p4 := ph.k_pos (i - 1) (by omega)
  have hf : 0 < 1 - d.size.v (i - 1) / (d.size.v i + d.size.v (i - 1)) := by
    have : d.size.v (i - 1) / (d.size.v i + d.size.v (i - 1)) < 1 := by
      rw [div_lt_one (by positivity)]; linarith
    linarith
  unfold kInter
  positivity

theorem lam_pos {d : Data} (ph : Physical d) {i : Nat} (h1 : 1 ≤ i) (hi : i < d.cells) : 0 < lam d i := by
  unfold lam
  have hs := ph.surf_pos (i - 1) (by omega)
  rw [show i - 1 + 1 = i from by omega] at hs
  have hk := ph.k_pos i hi
  have := kInter_pos ph h1 hi
  split_ifs <;> positivity

theorem interLambda_ok {d : Data} (ph : Physical d) :
    ∃ x, interLambda d = ok x ∧ x.n = d.cells ∧ ∀ i < d.cells, x.v i = lam d i := by
  have h2 := ph.two; have hn := ph.size_n; have hk := ph.k_n; have hs := ph.surf_n
  unfold interLambda
  rw [Vec.get_ok (by omega), ok_bind, Vec.get_ok (by omega), ok_bind, Vec.set_ok (by omega), ok_bind]
  obtain ⟨x, e, hx, hv⟩ := loopFrom_inv (a := 1) (n := d.cells - 2)
    (s := (⟨d.k.n, Function.update d.k.v 0 (d.k.v 0 * d.surf.v 0)⟩ : Vec ℝ))
    (body := fun i (L : Vec ℝ) => do
      let hm ← d.size.get (i - 1)
      let h ← d.size.get i
      let f ← fdiv hm (h + hm)
      let km ← d.k.get (i - 1)
      let a ← fdiv (1 - f) km
      let ki ← d.k.get i
      let b ← fdiv f ki
      let x ← fdiv 1 (a + b)
      let L ← L.set i x
      let y ← L.get i
      let s ← d.surf.get i
      L.set i (y * s))
    (fun i x => x.n = d.cells ∧ ∀ j, x.v j = if j = 0 then d.k.v 0 * d.surf.v 0
      else if j < i then kInter d j * d.surf.v j else d.k.v j)
    ⟨hk, fun j => by
      by_cases hj : j = 0
      · subst hj; simp
      · simp only [Function.update_of_ne hj, if_neg hj]; rw [if_neg (by omega)]⟩
    (by
      rintro i x h1 h3 ⟨hx, hv⟩
      have p1 := ph.size_pos i (by omega)
      have p2 := ph.size_pos (i - 1) (by omega)
      have p3 := ph.k_pos i (by omega)
      have p4 := ph.k_pos (i - 1) (by omega)
      have hne : (1 - d.size.v (i - 1) / (d.size.v i + d.size.v (i - 1))) / d.k.v (i - 1) +
          d.size.v (i - 1) / (d.size.v i + d.size.v (i - 1)) / d.k.v i ≠ 0 := by
        have := kInter_pos ph h1 (i := i) (by omega)
        intro h; rw [kInter, h] at this; simp at this
      refine ⟨⟨x.n, Function.update (Function.update x.v i (kInter d i)) i (kInter d i * d.surf.v i)⟩, ?_, hx, ?_⟩
      · rw [Vec.get_ok (by omega), ok_bind, Vec.get_ok (by omega), ok_bind, fdiv_ok (by positivity), ok_bind,
          Vec.get_ok (by omega), ok_bind, fdiv_ok (by positivity), ok_bind, Vec.get_ok (by omega), ok_bind,
          fdiv_ok (by positivity), ok_bind, fdiv_ok hne, ok_bind, Vec.set_ok (by omega), ok_bind,
          Vec.get_ok (by simp only; omega), ok_bind, Vec.get_ok (by omega), ok_bind, Vec.set_ok (by simp only; omega)]
        simp [kInter]
      · intro j
        by_cases hj : j = i
        · subst hj; simp; omega
        · simp only [Function.update_of_ne hj, hv j]
          by_cases hj0 : j = 0
          · simp [hj0]
          · rw [if_neg hj0, if_neg hj0]
            by_cases hc : j < i
            · rw [if_pos hc, if_pos (by omega)]
            · rw [if_neg hc, if_neg (by omega)])
  rw [e, ok_bind, predIdx_ok (by omega), ok_bind, Vec.get_ok (by omega), ok_bind, Vec.get_ok (by omega), ok_bind,
    Vec.set_ok (by omega)]
  refine ⟨_, rfl, hx, fun i hi => ?_⟩
  by_cases hi' : i = d.cells - 1
  · subst hi'
    simp only [Function.update_self]
    rw [hv, if_neg (by omega), if_neg (by omega), lam, if_neg (by omega)]
  · simp only [Function.update_of_ne hi']
    rw [hv, lam]
    by_cases h0 : i = 0
    · subst h0; simp
    · rw [if_neg h0, if_pos (by omega), if_pos (by omega)]

/-- conductance towards the left neighbour used in row `i` -/
def gl (d : Data) (i : Nat) : ℝ :=
  if i = 0 then 0 else if i = d.cells - 1 then lam d i / dx d (i - 1) else lam d i / dx d i

/-- conductance towards the right neighbour used in row `i` -/
def gr (d : Data) (i : Nat) : ℝ := if i = d.cells - 1 then 0 else lam d (i + 1) / dx d (i + 1)

theorem gl_pos {d : Data} (ph : Physical d) {i : Nat} (h1 : 1 ≤ i) (hi : i < d.cells) : 0 < gl d i := by
  have := lam_pos ph h1 hi
  have := dx_pos ph hi
  have := dx_pos ph (i := i - 1) (by omega)
  unfold gl
  rw [if_neg (by omega)]
  split_ifs <;> positivity

theorem gr_pos {d : Data} (ph : Physical d) {i : Nat} (hi : i + 1 < d.cells) : 0 < gr d i := by
  have := lam_pos ph (i := i + 1) (by omega) hi
  have := dx_pos ph hi
  unfold gr
  rw [if_neg (by omega)]
  positivity

/-- entries of the matrix without boundary terms -/
def tm (d : Data) (i j : Nat) : ℝ :=
  if j = i then gl d i + gr d i else if j = i + 1 then -gr d i else if i = j + 1 then -gl d i else 0

theorem setup_ok {d : Data} (ph : Physical d) :
    ∃ T, setup d = ok T ∧ T.r = d.cells ∧ T.c = d.cells ∧ ∀ i j, i < d.cells → j < d.cells → T.m i j = tm d i j := by
  obtain ⟨L, eL, nL, vL⟩ := interLambda_ok ph
  obtain ⟨X, eX, nX, vX⟩ := interSizes_ok ph
  have h2 := ph.two
  have hW : Writes d.cells d.cells (fun _ => True) (fun T => loop (fun i T => setupRow d L X i T) d.cells T)
      (fun x y => ∃ i, i < d.cells ∧ x = i ∧ (y = i ∨ y = i + 1 ∨ i = y + 1) ∧ y < d.cells) (tm d) := by
    refine Writes.loop (fun i hi => ?_)
    by_cases h0 : i = 0
    · subst h0
      have p := dx_pos ph (i := 1) (by omega)
      have g1 : gl d 0 = 0 := by simp [gl]
      have g2 : gr d 0 = lam d 1 / dx d 1 := by rw [gr, if_neg (by omega)]
      refine ((Writes.set' (p := 0) (q := 0) (a := gr d 0) hi hi (by simp [tm, g1])).seq
        (Writes.set' (p := 0) (q := 1) (a := -gr d 0) hi (by omega) (by simp [tm]))).congr ?_ ?_
      · intro M _ _ _
        rw [setupRow, if_pos rfl, Vec.get_ok (by omega), ok_bind, Vec.get_ok (by omega), ok_bind, vX _ (by omega),
          vL _ (by omega), fdiv_ok (ne_of_gt p), ok_bind, g2]
      · intro x y; constructor
        · rintro (h | h) <;> omega
        · intro h; omega
    · by_cases hl : i = d.cells - 1
      · have p := dx_pos ph (i := i - 1) (by omega)
        have g1 : gl d i = lam d i / dx d (i - 1) := by rw [gl, if_neg h0, if_pos hl]
        have g2 : gr d i = 0 := by rw [gr, if_pos hl]
        refine ((Writes.set' (p := i) (q := i) (a := gl d i) hi hi (by simp [tm, g2])).seq
          (Writes.set' (p := i) (q := i - 1) (a := -gl d i) hi (by omega)
            (by rw [tm, if_neg (by omega), if_neg (by omega), if_pos (by omega)]))).congr ?_ ?_
        · intro M _ _ _
          rw [setupRow, if_neg h0, if_pos hl, Vec.get_ok (by omega), ok_bind, Vec.get_ok (by omega), ok_bind,
            vX _ (by omega), vL _ (by omega), fdiv_ok (ne_of_gt p), ok_bind, g1]
        · intro x y; constructor
          · rintro (h | h) <;> omega
          · intro h; omega
      · have p := dx_pos ph (i := i) (by omega)
        have p' := dx_pos ph (i := i + 1) (by omega)
        have g1 : gl d i = lam d i / dx d i := by rw [gl, if_neg h0, if_neg hl]
        have g2 : gr d i = lam d (i + 1) / dx d (i + 1) := by rw [gr, if_neg hl]
        refine ((Writes.set' (p := i) (q := i) (a := gl d i + gr d i) hi hi (by simp [tm])).seq
          ((Writes.set' (p := i) (q := i - 1) (a := -gl d i) hi (by omega)
            (by rw [tm, if_neg (by omega), if_neg (by omega), if_pos (by omega)])).seq
          (Writes.set' (p := i) (q := i + 1) (a := -gr d i) hi (by omega) (by simp [tm])))).congr ?_ ?_
        · intro M _ _ _
          rw [setupRow, if_neg h0, if_neg hl, Vec.get_ok (by omega), ok_bind, Vec.get_ok (by omega), ok_bind,
            vX _ (by omega), vL _ (by omega), fdiv_ok (ne_of_gt p), ok_bind, Vec.get_ok (by omega), ok_bind,
            Vec.get_ok (by omega), ok_bind, vX _ (by omega), vL _ (by omega), fdiv_ok (ne_of_gt p'), ok_bind, g1, g2]
        · intro x y; constructor
          · rintro (h | h | h) <;> omega
          · intro h; omega
  obtain ⟨T, e, hr, hc, -, hv⟩ := hW (Mat.zero d.cells d.cells) rfl rfl trivial
  refine ⟨T, ?_, hr, hc, fun i j hi hj => ?_⟩
  · rw [setup, eL, ok_bind, eX, ok_bind]; exact e
  · by_cases h : j = i ∨ j = i + 1 ∨ i = j + 1
    · exact (hv i j).1 ⟨i, hi, rfl, h, hj⟩
    · rw [(hv i j).2 (by rintro ⟨i', _, e1, e2, _⟩; subst e1; exact h e2), tm, if_neg (by tauto), if_neg (by tauto),
        if_neg (by tauto)]
      rfl

/-- a row applied to a temperature field -/
theorem tm_row {d : Data} (x : Nat → ℝ) {i : Nat} (hi : i < d.cells) :
    ∑ j ∈ range d.cells, tm d i j * x j = gl d i * (x i - x (i - 1)) + gr d i * (x i - x (i + 1)) := by
  have e1 : ∀ j ∈ range d.cells, tm d i j * x j = (if j = i then (gl d i + gr d i) * x i else 0) +
      (if j = i + 1 then -gr d i * x (i + 1) else 0) + (if j = i - 1 then (if i = 0 then 0 else -gl d i * x (i - 1)) else 0) := by
    intro j hj
    unfold tm
    by_cases a : j = i
    · subst a
      rw [if_pos rfl, if_pos rfl, if_neg (by omega)]
      by_cases h0 : j = 0
      · simp [h0]
      · rw [if_neg (by omega)]; ring
    · rw [if_neg a, if_neg a]
      by_cases b : j = i + 1
      · subst b; rw [if_pos rfl, if_pos rfl, if_neg (by omega)]; ring
      · rw [if_neg b, if_neg b]
        by_cases c : i = j + 1
        · subst c; simp
        · rw [if_neg c]
          by_cases h0 : i = 0
          · simp [h0]
          · rw [if_neg (by omega)]; ring
  rw [sum_congr rfl e1, sum_add_distrib, sum_add_distrib, sum_ite_eq', sum_ite_eq', sum_ite_eq', if_pos (mem_range.2 hi),
    if_pos (mem_range.2 (show i - 1 < d.cells by omega))]
  by_cases h0 : i = 0
  · subst h0
    by_cases hl : 0 = d.cells - 1
    · rw [if_neg (by rw [mem_range]; omega)]; simp [gl, gr, ← hl]
    · rw [if_pos (by rw [mem_range]; omega)]; simp [gl]; ring
  · rw [if_neg h0]
    by_cases hl : i = d.cells - 1
    · rw [if_neg (by rw [mem_range]; omega)]; simp only [gr, if_pos hl]; ring
    · rw [if_pos (by rw [mem_range]; omega)]; ring

theorem toList_three {bc : Vec ℝ} {a b c : ℝ} (h : bc.toList = [a, b, c]) :
    bc.n = 3 ∧ bc.v 0 = a ∧ bc.v 1 = b ∧ bc.v 2 = c := by
  have hn : bc.n = 3 := by simpa [Vec.toList] using congrArg List.length h
  rw [Vec.toList, hn] at h
  simpa [List.range_succ, hn] using h

theorem toList_six {bc : Vec ℝ} {a b c a' b' c' : ℝ} (h : bc.toList = [a, b, c, a', b', c']) :
    bc.n = 6 ∧ bc.v 0 = a ∧ bc.v 1 = b ∧ bc.v 2 = c ∧ bc.v 3 = a' ∧ bc.v 4 = b' ∧ bc.v 5 = c' := by
  have hn : bc.n = 6 := by simpa [Vec.toList] using congrArg List.length h
  rw [Vec.toList, hn] at h
  simpa [List.range_succ, hn] using h

theorem heatBoundaries_ok {bc : Vec ℝ} {AL BL CL AR BR CR : ℝ} (h : Boundaries bc AL BL CL AR BR CR) :
    heatBoundaries bc = ok (Vec.ofList [AL, BL, CL], Vec.ofList [AR, BR, CR]) := by
  rcases h with ⟨h, rfl, rfl, rfl⟩ | h
  · obtain ⟨hn, h0, h1, h2⟩ := toList_three h
    rw [heatBoundaries, if_pos hn, Vec.get_ok (by omega), ok_bind, Vec.get_ok (by omega), ok_bind, Vec.get_ok (by omega),
      ok_bind, h0, h1, h2]
  · obtain ⟨hn, h0, h1, h2, h3, h4, h5⟩ := toList_six h
    rw [heatBoundaries, if_neg (by omega), if_pos hn, Vec.get_ok (by omega), ok_bind, Vec.get_ok (by omega), ok_bind,
      Vec.get_ok (by omega), ok_bind, Vec.get_ok (by omega), ok_bind, Vec.get_ok (by omega), ok_bind,
      Vec.get_ok (by omega), ok_bind, h0, h1, h2, h3, h4, h5]

/-- `x / den` on the left -/
def bl (d : Data) (A B x : ℝ) : ℝ := x / (d.size.v 0 / (2 * d.k.v 0) * A + B)

/-- `x / den` on the right -/
def br (d : Data) (A B x : ℝ) : ℝ :=
  x * d.surf.v d.cells / (d.size.v (d.cells - 1) / (2 * d.k.v (d.cells - 1)) * A + B)

theorem system_ok {d : Data} (ph : Physical d) {AL BL CL AR BR CR : ℝ} (hb : Boundaries d.bc AL BL CL AR BR CR)
    (hd : Determined d AL BL AR BR) :
    ∃ T rhs, system d = ok (T, rhs) ∧ T.r = d.cells ∧ T.c = d.cells ∧ rhs.n = d.cells ∧
      (∀ i j, i < d.cells → j < d.cells → T.m i j = tm d i j +
        (if i = 0 ∧ j = 0 ∧ d.geom = .slab then bl d AL BL AL else 0) +
        (if i = d.cells - 1 ∧ j = d.cells - 1 then br d AR BR AR else 0)) ∧
      (∀ i, i < d.cells → rhs.v i = d.q.v i * d.vol.v i + (if i = 0 ∧ d.geom = .slab then bl d AL BL CL else 0) +
        (if i = d.cells - 1 then br d AR BR CR else 0)) := by
  obtain ⟨T, eT, hr, hc, hT⟩ := setup_ok ph
  obtain ⟨L, eL, nL, vL⟩ := interLambda_ok ph
  have h2 := ph.two
  obtain ⟨src, es, ns, vs⟩ := loop_map (fun i y => y * d.vol.v i) d.q (fun i (x : Vec ℝ) => do
      let y ← x.get i
      let v ← d.vol.get i
      x.set i (y * v)) (by
    intro i t hi hn he
    have := ph.q_n; have := ph.vol_n
    rw [Vec.get_ok (by omega), ok_bind, Vec.get_ok (by omega), ok_bind, Vec.set_ok (by omega), he])
  rw [ph.q_n] at es ns vs
  have hleft : ∃ T' src', ((if d.geom = .slab then do
      let r1 ← d.radii.get 1
      let r0 ← d.radii.get 0
      let A ← (Vec.ofList [AL, BL, CL]).get 0
      let B ← (Vec.ofList [AL, BL, CL]).get 1
      let C ← (Vec.ofList [AL, BL, CL]).get 2
      let l0 ← L.get 0
      let w ← fdiv (r1 - r0) (2 * l0)
      let den := w * A + B
      let alpha ← fdiv A den
      let beta ← fdiv (-C) den
      let t ← T.get 0 0
      let T ← T.set 0 0 (t + alpha)
      let s ← src.get 0
      let src ← src.set 0 (s - beta)
      ok (T, src)
    else ok (T, src) : Outcome (Mat ℝ × Vec ℝ))) = ok (T', src') ∧ T'.r = d.cells ∧ T'.c = d.cells ∧ src'.n = d.cells ∧
      (∀ i j, i < d.cells → j < d.cells → T'.m i j = tm d i j +
        (if i = 0 ∧ j = 0 ∧ d.geom = .slab then bl d AL BL AL else 0)) ∧
      (∀ i, i < d.cells → src'.v i = d.q.v i * d.vol.v i + (if i = 0 ∧ d.geom = .slab then bl d AL BL CL else 0)) := by
    by_cases hg : d.geom = .slab
    · rw [if_pos hg]
      have hk := ph.k_pos 0 (by omega)
      have hl : L.v 0 = d.k.v 0 := by
        rw [vL 0 (by omega), lam, if_neg (by omega), ph.slab hg, mul_one]
      have hs : d.radii.v 1 - d.radii.v 0 = d.size.v 0 := (ph.size_eq 0 (by omega)).symm
      have hne := hd.left hg
      have := ph.radii_n
      rw [Vec.get_ok (by omega), ok_bind, Vec.get_ok (by omega), ok_bind, Vec.get_ok (by simp [Vec.ofList]), ok_bind,
        Vec.get_ok (by simp [Vec.ofList]), ok_bind, Vec.get_ok (by simp [Vec.ofList]), ok_bind, Vec.get_ok (by omega), ok_bind,
        hl, hs, fdiv_ok (by positivity), ok_bind]
      have e0 : (Vec.ofList [AL, BL, CL]).v 0 = AL := rfl
      have e1 : (Vec.ofList [AL, BL, CL]).v 1 = BL := rfl
      have e2 : (Vec.ofList [AL, BL, CL]).v 2 = CL := rfl
      simp only [e0, e1, e2]
      rw [fdiv_ok hne, ok_bind, fdiv_ok hne, ok_bind, Mat.get_ok (by omega) (by omega), ok_bind,
        Mat.set_ok (by omega) (by omega), ok_bind, Vec.get_ok (by omega), ok_bind, Vec.set_ok (by omega), ok_bind]
      refine ⟨_, _, rfl, hr, hc, ns, fun i j hi hj => ?_, fun i hi => ?_⟩
      · dsimp only
        by_cases hij : i = 0 ∧ j = 0
        · obtain ⟨rfl, rfl⟩ := hij
          rw [if_pos ⟨rfl, rfl⟩, if_pos ⟨rfl, rfl, hg⟩, hT 0 0 hi hj, bl]
        · rw [if_neg hij, if_neg (fun h => hij ⟨h.1, h.2.1⟩), hT i j hi hj, add_zero]
      · dsimp only
        by_cases h0 : i = 0
        · subst h0
          rw [Function.update_self, if_pos ⟨rfl, hg⟩, vs 0 hi, bl]; ring
        · rw [Function.update_of_ne h0, if_neg (fun h => h0 h.1), vs i hi, add_zero]
    · rw [if_neg hg]
      exact ⟨_, _, rfl, hr, hc, ns, fun i j hi hj => by rw [hT i j hi hj, if_neg (fun h => hg h.2.2), add_zero],
        fun i hi => by rw [vs i hi, if_neg (fun h => hg h.2), add_zero]⟩
  obtain ⟨T', src', e', hr', hc', ns', hT', vs'⟩ := hleft
  have hk := ph.k_pos (d.cells - 1) (by omega)
  have hsl : 0 < d.surf.v (d.cells - 1) := by
    have := ph.surf_pos (d.cells - 2) (by omega)
    rwa [show d.cells - 2 + 1 = d.cells - 1 from by omega] at this
  have hsc : 0 < d.surf.v d.cells := by
    have := ph.surf_pos (d.cells - 1) (by omega)
    rwa [show d.cells - 1 + 1 = d.cells from by omega] at this
  have hl : L.v (d.cells - 1) = d.k.v (d.cells - 1) * d.surf.v (d.cells - 1) := by
    rw [vL _ (by omega), lam, if_neg (by omega)]
  have hs : d.radii.v d.cells - d.radii.v (d.cells - 1) = d.size.v (d.cells - 1) := by
    have := ph.size_eq (d.cells - 1) (by omega)
    rw [this, show d.cells - 1 + 1 = d.cells from by omega]
  have hz : 2 * d.surf.v d.cells * (d.k.v (d.cells - 1) * d.surf.v (d.cells - 1)) / d.surf.v (d.cells - 1) =
      2 * d.surf.v d.cells * d.k.v (d.cells - 1) := by field_simp
  have hden : d.size.v (d.cells - 1) / (2 * d.surf.v d.cells * d.k.v (d.cells - 1)) * AR + BR / d.surf.v d.cells =
      (d.size.v (d.cells - 1) / (2 * d.k.v (d.cells - 1)) * AR + BR) / d.surf.v d.cells := by field_simp
  have hne := hd.right
  have := ph.radii_n; have := ph.surf_n
  rw [system, eT, ok_bind, applyBC, heatBoundaries_ok hb, ok_bind, eL, ok_bind, es, ok_bind]
  dsimp only
  rw [e', ok_bind]
  dsimp only
  rw [predIdx_ok (by omega), ok_bind, Vec.get_ok (by omega), ok_bind, Vec.get_ok (by omega), ok_bind,
    Vec.get_ok (by simp [Vec.ofList]), ok_bind, Vec.get_ok (by simp [Vec.ofList]), ok_bind, Vec.get_ok (by simp [Vec.ofList]),
    ok_bind, Vec.get_ok (by omega), ok_bind, Vec.get_ok (by omega), ok_bind, Vec.get_ok (by omega), ok_bind,
    fdiv_ok (ne_of_gt hsl), ok_bind, hl, hz, hs, fdiv_ok (by positivity), ok_bind, fdiv_ok (ne_of_gt hsc), ok_bind]
  have e0 : (Vec.ofList [AR, BR, CR]).v 0 = AR := rfl
  have e1 : (Vec.ofList [AR, BR, CR]).v 1 = BR := rfl
  have e2 : (Vec.ofList [AR, BR, CR]).v 2 = CR := rfl
  simp only [e0, e1, e2, hden]
  have hne' : (d.size.v (d.cells - 1) / (2 * d.k.v (d.cells - 1)) * AR + BR) / d.surf.v d.cells ≠ 0 :=
    div_ne_zero hne (ne_of_gt hsc)
  rw [fdiv_ok hne', ok_bind, fdiv_ok hne', ok_bind, Mat.get_ok (by omega) (by omega), ok_bind,
    Mat.set_ok (by omega) (by omega), ok_bind, Vec.get_ok (by omega), ok_bind, Vec.set_ok (by omega), ok_bind]
  refine ⟨_, _, rfl, hr', hc', ns', fun i j hi hj => ?_, fun i hi => ?_⟩
  · dsimp only
    by_cases hij : i = d.cells - 1 ∧ j = d.cells - 1
    · obtain ⟨rfl, rfl⟩ := hij
      rw [if_pos ⟨rfl, rfl⟩, if_pos (⟨rfl, rfl⟩ : d.cells - 1 = d.cells - 1 ∧ d.cells - 1 = d.cells - 1), hT' _ _ hi hj, br,
        div_div_eq_mul_div]
    · rw [if_neg hij, if_neg hij, hT' i j hi hj, add_zero]
  · dsimp only
    by_cases h0 : i = d.cells - 1
    · subst h0
      rw [Function.update_self, if_pos rfl, vs' _ hi, br, div_div_eq_mul_div]; ring
    · rw [Function.update_of_ne h0, if_neg h0, vs' i hi, add_zero]

/-- a row of the final system -/
theorem system_row {d : Data} {T : Mat ℝ} {a b : ℝ} (hT : ∀ i j, i < d.cells → j < d.cells → T.m i j = tm d i j +
      (if i = 0 ∧ j = 0 ∧ d.geom = .slab then a else 0) + (if i = d.cells - 1 ∧ j = d.cells - 1 then b else 0))
    (x : Nat → ℝ) {i : Nat} (hi : i < d.cells) :
    ∑ j ∈ range d.cells, T.m i j * x j = gl d i * (x i - x (i - 1)) + gr d i * (x i - x (i + 1)) +
      ((if i = 0 ∧ d.geom = .slab then a else 0) + (if i = d.cells - 1 then b else 0)) * x i := by
  have e1 : ∀ j ∈ range d.cells, T.m i j * x j = tm d i j * x j +
      (if j = i then ((if i = 0 ∧ d.geom = .slab then a else 0) + (if i = d.cells - 1 then b else 0)) * x i else 0) := by
    intro j hj
    rw [hT i j hi (mem_range.1 hj)]
    by_cases hji : j = i
    · subst hji
      rw [if_pos rfl]
      by_cases c1 : j = 0 ∧ d.geom = .slab <;> by_cases c2 : j = d.cells - 1
      · rw [if_pos ⟨c1.1, c1.1, c1.2⟩, if_pos ⟨c2, c2⟩, if_pos c1, if_pos c2]; ring
      · rw [if_pos ⟨c1.1, c1.1, c1.2⟩, if_neg (fun h => c2 h.1), if_pos c1, if_neg c2]; ring
      · rw [if_neg (fun h => c1 ⟨h.1, h.2.2⟩), if_pos ⟨c2, c2⟩, if_neg c1, if_pos c2]; ring
      · rw [if_neg (fun h => c1 ⟨h.1, h.2.2⟩), if_neg (fun h => c2 h.1), if_neg c1, if_neg c2]; ring
    · rw [if_neg hji, if_neg (by omega), if_neg (by omega)]; ring
  rw [sum_congr rfl e1, sum_add_distrib, tm_row x hi, sum_ite_eq', if_pos (mem_range.2 hi)]

/-- minimum principle for the rows of the system -/
theorem row_min {n : Nat} {l r a x : Nat → ℝ} (hl : ∀ i, 1 ≤ i → i < n → 0 < l i) (hr : ∀ i, i + 1 < n → 0 < r i)
    (l0 : l 0 = 0) (r1 : r (n - 1) = 0) (ha : ∀ i, i < n → 0 ≤ a i) (hpos : ∃ q, q < n ∧ 0 < a q)
    (hx : ∀ i, i < n → 0 ≤ l i * (x i - x (i - 1)) + r i * (x i - x (i + 1)) + a i * x i) :
    ∀ i, i < n → 0 ≤ x i := by
  by_contra hcon
  push Not at hcon
  obtain ⟨i0, hi0, hneg⟩ := hcon
  obtain ⟨p, hp, hmin⟩ := exists_min_image (range n) x ⟨i0, mem_range.2 hi0⟩
  have hp' := mem_range.1 hp
  have hpneg : x p < 0 := lt_of_le_of_lt (hmin i0 (mem_range.2 hi0)) hneg
  have hmin' : ∀ j, j < n → x p ≤ x j := fun j hj => hmin j (mem_range.2 hj)
  have hL : ∀ i, i < n → x i = x p → l i * (x i - x (i - 1)) ≤ 0 := by
    intro i hi e
    by_cases h0 : i = 0
    · rw [h0, l0]; simp
    · have := hl i (by omega) hi
      have := hmin' (i - 1) (by omega)
      exact mul_nonpos_of_nonneg_of_nonpos (by linarith) (by linarith)
  have hR : ∀ i, i < n → x i = x p → r i * (x i - x (i + 1)) ≤ 0 := by
    intro i hi e
    by_cases h0 : i = n - 1
    · rw [h0, r1]; simp
    · have := hr i (by omega)
      have := hmin' (i + 1) (by omega)
      exact mul_nonpos_of_nonneg_of_nonpos (by linarith) (by linarith)
  have hA : ∀ i, i < n → x i = x p → a i * x i ≤ 0 := fun i hi e =>
    mul_nonpos_of_nonneg_of_nonpos (ha i hi) (by linarith)
  have up : ∀ k, p + k < n → x (p + k) = x p := by
    intro k
    induction k with
    | zero => intro _; rfl
    | succ k ih =>
      intro hk
      have e := ih (by omega)
      have h := hx (p + k) (by omega)
      have h1 := hL (p + k) (by omega) e
      have h2 := hA (p + k) (by omega) e
      have h6 := nonneg_of_mul_nonneg_right (show 0 ≤ r (p + k) * (x (p + k) - x (p + k + 1)) by linarith)
        (hr (p + k) (by omega))
      have h4 := hmin' (p + k + 1) (by omega)
      rw [← add_assoc]
      linarith
  have down : ∀ k, k ≤ p → x (p - k) = x p := by
    intro k
    induction k with
    | zero => intro _; rfl
    | succ k ih =>
      intro hk
      have e := ih (by omega)
      have h := hx (p - k) (by omega)
      have h1 := hR (p - k) (by omega) e
      have h2 := hA (p - k) (by omega) e
      have h6 := nonneg_of_mul_nonneg_right (show 0 ≤ l (p - k) * (x (p - k) - x (p - k - 1)) by linarith)
        (hl (p - k) (by omega) (by omega))
      have h4 := hmin' (p - k - 1) (by omega)
      rw [show p - (k + 1) = p - k - 1 from by omega]
      linarith
  obtain ⟨q, hq, haq⟩ := hpos
  have e : x q = x p := by
    by_cases hqp : q ≤ p
    · have := down (p - q) (by omega)
      rwa [show p - (p - q) = q from by omega] at this
    · have := up (q - p) (by omega)
      rwa [show p + (q - p) = q from by omega] at this
  have h := hx q hq
  have h1 := hL q hq e
  have h2 := hR q hq e
  have h3 : a q * x q < 0 := mul_neg_of_pos_of_neg haq (by linarith)
  linarith

/-- sum of the conduction terms over all rows: only the last interface may fail to cancel -/
theorem conduction_sum {d : Data} (h2 : 2 ≤ d.cells) (x : Nat → ℝ) :
    ∑ i ∈ range d.cells, (gl d i * (x i - x (i - 1)) + gr d i * (x i - x (i + 1))) =
      lam d (d.cells - 1) * (1 / dx d (d.cells - 1) - 1 / dx d (d.cells - 2)) * (x (d.cells - 2) - x (d.cells - 1)) := by
  obtain ⟨m, hm⟩ : ∃ m, d.cells = m + 2 := ⟨d.cells - 2, by omega⟩
  rw [sum_add_distrib]
  have e1 : ∑ i ∈ range d.cells, gl d i * (x i - x (i - 1)) = ∑ i ∈ range (m + 1), gl d (i + 1) * (x (i + 1) - x i) := by
    rw [hm, sum_range_succ']
    simp [gl]
  have e2 : ∑ i ∈ range d.cells, gr d i * (x i - x (i + 1)) = ∑ i ∈ range (m + 1), gr d i * (x i - x (i + 1)) := by
    rw [hm, sum_range_succ]
    have : gr d (m + 1) = 0 := by rw [gr, if_pos (by omega)]
    rw [this]; ring
  rw [e1, e2, ← sum_add_distrib, sum_range_succ, sum_eq_zero, zero_add]
  · have g1 : gl d (m + 1) = lam d (m + 1) / dx d m := by
      rw [gl, if_neg (by omega), if_pos (by omega)]; rfl
    have g2 : gr d m = lam d (m + 1) / dx d (m + 1) := by rw [gr, if_neg (by omega)]
    rw [g1, g2, show d.cells - 1 = m + 1 from by omega, show d.cells - 2 = m from by omega]
    ring
  · intro i hi
    have hi := mem_range.1 hi
    rw [gl, gr, if_neg (by omega), if_neg (by omega), if_neg (by omega)]
    ring

theorem sum_left {d : Data} (h2 : 2 ≤ d.cells) (a : ℝ) (x : Nat → ℝ) :
    ∑ i ∈ range d.cells, (if i = 0 ∧ d.geom = .slab then a else 0) * x i = (if d.geom = .slab then a else 0) * x 0 := by
  rw [sum_eq_single 0]
  · simp
  · intro i _ hi; rw [if_neg (fun h => hi h.1), zero_mul]
  · intro h; exact absurd (mem_range.2 (by omega)) h

theorem sum_right {d : Data} (h2 : 2 ≤ d.cells) (a : ℝ) (x : Nat → ℝ) :
    ∑ i ∈ range d.cells, (if i = d.cells - 1 then a else 0) * x i = a * x (d.cells - 1) := by
  rw [sum_eq_single (d.cells - 1)]
  · simp
  · intro i _ hi; rw [if_neg hi, zero_mul]
  · intro h; exact absurd (mem_range.2 (by omega)) h

theorem outFlow_iff {A B C k h S t J : ℝ} (hk : 0 < k) (hh : 0 < h) (hS : 0 < S) (hne : h / (2 * k) * A + B ≠ 0) :
    OutFlow A B C k h S t J ↔ J = (A * t - C) * S / (h / (2 * k) * A + B) := by
  constructor
  · rintro ⟨ts, h1, h2⟩
    have ets : ts = t - J * h / (2 * k * S) := by
      rw [h1]; field_simp; ring
    rw [eq_div_iff hne]
    have : A * (t - J * h / (2 * k * S)) - B * (J / S) = C := by rw [← ets]; exact h2
    field_simp at this ⊢
    linarith
  · intro hJ
    refine ⟨t - J * h / (2 * k * S), by field_simp; ring, ?_⟩
    rw [eq_div_iff hne] at hJ
    field_simp at hJ ⊢
    linarith

theorem fourier_iff {k1 h1 k2 h2 S t1 t2 J : ℝ} (p1 : 0 < k1) (p2 : 0 < h1) (p3 : 0 < k2) (p4 : 0 < h2) :
    Fourier k1 h1 k2 h2 S t1 t2 J ↔ J = S * (2 * (k1 * k2) / (h1 * k2 + h2 * k1)) * (t1 - t2) := by
  have hp : 0 < h1 * k2 + h2 * k1 := by positivity
  constructor
  · rintro ⟨ts, e1, e2⟩
    have f1 : J * h1 * k2 = 2 * S * k1 * k2 * (t1 - ts) := by rw [e1]; field_simp
    have f2 : J * h2 * k1 = 2 * S * k1 * k2 * (ts - t2) := by rw [e2]; field_simp
    field_simp
    linarith
  · intro e
    refine ⟨(h2 * k1 * t1 + h1 * k2 * t2) / (h1 * k2 + h2 * k1), ?_, ?_⟩
    · rw [e]; field_simp; ring
    · rw [e]; field_simp; ring

/-- the system, cell by cell -/
theorem conducted_iff {d : Data} (ph : Physical d) {AL BL CL AR BR CR : ℝ} (hd : Determined d AL BL AR BR) {t : Nat → ℝ} :
    Conducted d.geom d.cells d.size.v d.k.v d.surf.v (fun i => d.q.v i * d.vol.v i) AL BL CL AR BR CR t ↔
      ∀ i < d.cells, gl d i * (t i - t (i - 1)) + gr d i * (t i - t (i + 1)) +
        ((if i = 0 ∧ d.geom = .slab then bl d AL BL AL else 0) + (if i = d.cells - 1 then br d AR BR AR else 0)) * t i =
        d.q.v i * d.vol.v i + (if i = 0 ∧ d.geom = .slab then bl d AL BL CL else 0) + (if i = d.cells - 1 then br d AR BR CR else 0) := by
  have h2 := ph.two
  have hsc : 0 < d.surf.v d.cells := by
    have := ph.surf_pos (d.cells - 1) (by omega)
    rwa [show d.cells - 1 + 1 = d.cells from by omega] at this
  have hR : ∀ J, OutFlow AR BR CR (d.k.v (d.cells - 1)) (d.size.v (d.cells - 1)) (d.surf.v d.cells) (t (d.cells - 1)) J ↔
      J = br d AR BR AR * t (d.cells - 1) - br d AR BR CR := fun J => by
    rw [outFlow_iff (ph.k_pos _ (by omega)) (ph.size_pos _ (by omega)) hsc hd.right, br, br]
    constructor <;> rintro rfl <;> ring
  have hL : ∀ J, (if d.geom = .slab then OutFlow AL BL CL (d.k.v 0) (d.size.v 0) 1 (t 0) (-J) else J = 0) ↔
      J = if d.geom = .slab then bl d AL BL CL - bl d AL BL AL * t 0 else 0 := fun J => by
    by_cases hg : d.geom = .slab
    · rw [if_pos hg, if_pos hg, outFlow_iff (ph.k_pos 0 (by omega)) (ph.size_pos 0 (by omega)) one_pos (hd.left hg), bl, bl]
      constructor
      · intro h
        have : J = -((AL * t 0 - CL) * 1 / (d.size.v 0 / (2 * d.k.v 0) * AL + BL)) := by linarith
        rw [this]; ring
      · rintro rfl; ring
    · rw [if_neg hg, if_neg hg]
  have hin : ∀ i, 1 ≤ i → i + 1 < d.cells → ∀ J, Fourier (d.k.v (i - 1)) (d.size.v i) (d.k.v i) (d.size.v (i - 1)) (d.surf.v i) (t (i - 1)) (t i) J ↔
      J = lam d i / dx d i * (t (i - 1) - t i) := fun i h1 hi J => by
    have p1 := ph.size_pos i (by omega)
    have p2 := ph.size_pos (i - 1) (by omega)
    have p3 := ph.k_pos i (by omega)
    have p4 := ph.k_pos (i - 1) (by omega)
    rw [fourier_iff p4 p1 p3 p2, lam, if_pos ⟨h1, hi⟩, dx, if_pos ⟨h1, hi⟩, kInter]
    have : d.surf.v i * (2 * (d.k.v (i - 1) * d.k.v i) / (d.size.v i * d.k.v i + d.size.v (i - 1) * d.k.v (i - 1))) =
        1 / ((1 - d.size.v (i - 1) / (d.size.v i + d.size.v (i - 1))) / d.k.v (i - 1) + d.size.v (i - 1) / (d.size.v i + d.size.v (i - 1)) / d.k.v i) *
          d.surf.v i / (1 / 2 * (d.size.v i + d.size.v (i - 1))) := by
      have e : (1 - d.size.v (i - 1) / (d.size.v i + d.size.v (i - 1))) / d.k.v (i - 1) + d.size.v (i - 1) / (d.size.v i + d.size.v (i - 1)) / d.k.v i =
          (d.size.v i * d.k.v i + d.size.v (i - 1) * d.k.v (i - 1)) / ((d.size.v i + d.size.v (i - 1)) * (d.k.v (i - 1) * d.k.v i)) := by
        field_simp
        ring
      rw [e]
      field_simp
    rw [this]
  have hlast : ∀ J, Fourier (d.k.v (d.cells - 1)) (d.size.v (d.cells - 1)) (d.k.v (d.cells - 1)) (d.size.v (d.cells - 1)) (d.surf.v (d.cells - 1)) (t (d.cells - 2)) (t (d.cells - 1)) J ↔
      J = lam d (d.cells - 1) / dx d (d.cells - 1) * (t (d.cells - 2) - t (d.cells - 1)) := fun J => by
    have p1 := ph.size_pos (d.cells - 1) (by omega)
    have p3 := ph.k_pos (d.cells - 1) (by omega)
    rw [fourier_iff p3 p1 p3 p1, lam, if_neg (by omega), dx, if_neg (by omega)]
    have : d.surf.v (d.cells - 1) * (2 * (d.k.v (d.cells - 1) * d.k.v (d.cells - 1)) /
        (d.size.v (d.cells - 1) * d.k.v (d.cells - 1) + d.size.v (d.cells - 1) * d.k.v (d.cells - 1))) =
        d.k.v (d.cells - 1) * d.surf.v (d.cells - 1) / d.size.v (d.cells - 1) := by
      field_simp
      ring
    rw [this]
  have hI : ∀ I, Fourier (d.k.v (d.cells - 1)) (d.size.v (d.cells - 2)) (d.k.v (d.cells - 1)) (if 2 < d.cells then d.size.v (d.cells - 3) else d.size.v (d.cells - 2))
      (d.surf.v (d.cells - 1)) (t (d.cells - 2)) (t (d.cells - 1)) I ↔
      I = lam d (d.cells - 1) / dx d (d.cells - 2) * (t (d.cells - 2) - t (d.cells - 1)) := fun I => by
    have p1 := ph.size_pos (d.cells - 2) (by omega)
    have p3 := ph.k_pos (d.cells - 1) (by omega)
    obtain ⟨h3, e3, p2, e4⟩ : ∃ h3, h3 = (if 2 < d.cells then d.size.v (d.cells - 3) else d.size.v (d.cells - 2)) ∧ 0 < h3 ∧
        dx d (d.cells - 2) = 1 / 2 * (d.size.v (d.cells - 2) + h3) := by
      by_cases hc : 2 < d.cells
      · refine ⟨_, rfl, ?_, ?_⟩
        · rw [if_pos hc]; exact ph.size_pos _ (by omega)
        · rw [if_pos hc, dx, if_pos (by omega), show d.cells - 2 - 1 = d.cells - 3 by omega]
      · refine ⟨_, rfl, ?_, ?_⟩
        · rw [if_neg hc]; exact p1
        · rw [if_neg hc, dx, if_neg (by omega)]; ring
    rw [← e3, e4, fourier_iff p3 p1 p3 p2, lam, if_neg (by omega)]
    have : d.surf.v (d.cells - 1) * (2 * (d.k.v (d.cells - 1) * d.k.v (d.cells - 1)) / (d.size.v (d.cells - 2) * d.k.v (d.cells - 1) + h3 * d.k.v (d.cells - 1))) =
        d.k.v (d.cells - 1) * d.surf.v (d.cells - 1) / (1 / 2 * (d.size.v (d.cells - 2) + h3)) := by
      field_simp
    rw [this]
  have row : ∀ J : Nat → ℝ, ∀ I : ℝ, (J 0 = if d.geom = .slab then bl d AL BL CL - bl d AL BL AL * t 0 else 0) →
      J d.cells = br d AR BR AR * t (d.cells - 1) - br d AR BR CR → (∀ i, 1 ≤ i → i < d.cells → J i = lam d i / dx d i * (t (i - 1) - t i)) →
      I = lam d (d.cells - 1) / dx d (d.cells - 2) * (t (d.cells - 2) - t (d.cells - 1)) → ∀ i < d.cells,
      (gl d i * (t i - t (i - 1)) + gr d i * (t i - t (i + 1)) +
        ((if i = 0 ∧ d.geom = .slab then bl d AL BL AL else 0) + (if i = d.cells - 1 then br d AR BR AR else 0)) * t i =
        d.q.v i * d.vol.v i + (if i = 0 ∧ d.geom = .slab then bl d AL BL CL else 0) + (if i = d.cells - 1 then br d AR BR CR else 0) ↔
      J (i + 1) - (if i = d.cells - 1 then I else J i) = d.q.v i * d.vol.v i) := by
    intro J I j0 jn ji jI i hi
    by_cases h0 : i = 0
    · subst h0
      have e1 := ji 1 le_rfl (by omega)
      rw [if_neg (show ¬ 0 = d.cells - 1 by omega), j0, show 0 + 1 = 1 from rfl, e1, gl, gr, if_pos rfl, if_neg (show ¬ 0 = d.cells - 1 by omega)]
      simp only [if_neg (show ¬ 0 = d.cells - 1 by omega), true_and, Nat.sub_self]
      by_cases hg : d.geom = .slab
      · simp only [if_pos hg]
        constructor <;> intro h <;> linarith
      · simp only [if_neg hg]
        constructor <;> intro h <;> linarith
    · by_cases hl : i = d.cells - 1
      · have e2 : i + 1 = d.cells := by omega
        simp only [h0, false_and, if_false, if_pos hl, gl, gr]
        rw [e2, jn, jI, ← hl, show d.cells - 2 = i - 1 by omega]
        constructor <;> intro h <;> linarith
      · have e1 := ji i (by omega) hi
        have e2 := ji (i + 1) (by omega) (by omega)
        simp only [h0, hl, false_and, if_false, gl, gr]
        rw [e1, e2, Nat.add_sub_cancel]
        constructor <;> intro h <;> linarith
  constructor
  · rintro ⟨J, I, h1, h2', h3, h4, h5, h6, h7⟩ i hi
    rw [hL] at h1
    rw [hR] at h2'
    rw [hlast] at h4
    rw [hI] at h5
    refine (row J I h1 h2' (fun i i1 i2 => ?_) h5 i hi).2 ?_
    · by_cases hl : i + 1 < d.cells
      · exact (hin i i1 hl _).1 (h3 i i1 hl)
      · obtain rfl : i = d.cells - 1 := by omega
        exact h4
    · by_cases hl : i = d.cells - 1
      · rw [if_pos hl, hl, show d.cells - 1 + 1 = d.cells by omega]
        exact h7
      · rw [if_neg hl]
        exact h6 i (by omega)
  · intro h
    obtain ⟨J, hJ⟩ : ∃ J : Nat → ℝ, ∀ i, J i = if i = 0 then (if d.geom = .slab then bl d AL BL CL - bl d AL BL AL * t 0 else 0) else
        if i = d.cells then br d AR BR AR * t (d.cells - 1) - br d AR BR CR else lam d i / dx d i * (t (i - 1) - t i) := ⟨_, fun _ => rfl⟩
    have j0 := hJ 0
    rw [if_pos rfl] at j0
    have jn := hJ d.cells
    rw [if_neg (by omega), if_pos rfl] at jn
    have ji : ∀ i, 1 ≤ i → i < d.cells → J i = lam d i / dx d i * (t (i - 1) - t i) := fun i i1 i2 => by
      rw [hJ i, if_neg (by omega), if_neg (by omega)]
    have key := row J _ j0 jn ji rfl
    refine ⟨J, lam d (d.cells - 1) / dx d (d.cells - 2) * (t (d.cells - 2) - t (d.cells - 1)), (hL _).2 j0, (hR _).2 jn, fun i i1 i2 => (hin i i1 i2 _).2 (ji i i1 (by omega)),
      (hlast _).2 (ji _ (by omega) (by omega)), (hI _).2 rfl, fun i hi => ?_, ?_⟩
    · have := (key i (by omega)).1 (h i (by omega))
      rwa [if_neg (by omega)] at this
    · have := (key (d.cells - 1) (by omega)).1 (h _ (by omega))
      rwa [if_pos rfl, show d.cells - 1 + 1 = d.cells by omega] at this

/-- only the numbers of the cells and faces matter -/
theorem Conducted.congr {g : Diffusion.Geom} {n : Nat} {h h' k k' S S' Q Q' t t' : Nat → ℝ} {AL BL CL AR BR CR : ℝ}
    (hs : Conducted g n h k S Q AL BL CL AR BR CR t) (hn : 2 ≤ n) (eh : ∀ i, i < n → h i = h' i) (ek : ∀ i, i < n → k i = k' i)
    (eS : ∀ i, i ≤ n → S i = S' i) (eQ : ∀ i, i < n → Q i = Q' i) (et : ∀ i, i < n → t i = t' i) :
    Conducted g n h' k' S' Q' AL BL CL AR BR CR t' := by
  obtain ⟨J, I, h1, h2, h3, h4, h5, h6, h7⟩ := hs
  have e3 : (if 2 < n then h (n - 3) else h (n - 2)) = if 2 < n then h' (n - 3) else h' (n - 2) := by
    rw [eh _ (by omega), eh _ (by omega)]
  rw [eh 0 (by omega), ek 0 (by omega), et 0 (by omega)] at h1
  rw [eh (n - 1) (by omega), ek (n - 1) (by omega), et (n - 1) (by omega), eS n le_rfl] at h2
  rw [eh (n - 1) (by omega), ek (n - 1) (by omega), et (n - 1) (by omega), et (n - 2) (by omega), eS (n - 1) (by omega)] at h4
  rw [e3, eh (n - 2) (by omega), ek (n - 1) (by omega), et (n - 1) (by omega), et (n - 2) (by omega), eS (n - 1) (by omega)] at h5
  refine ⟨J, I, h1, h2, fun i i1 i2 => ?_, h4, h5, fun i hi => ?_, ?_⟩
  · have := h3 i i1 i2
    rwa [eh i (by omega), eh (i - 1) (by omega), ek i (by omega), ek (i - 1) (by omega), et i (by omega), et (i - 1) (by omega), eS i (by omega)] at this
  · rw [← eQ i (by omega)]; exact h6 i hi
  · rw [← eQ (n - 1) (by omega)]; exact h7

/-- where the errors do no harm -/
theorem conducted_steady {g : Diffusion.Geom} {n : Nat} {h k S Q : Nat → ℝ} {AL BL CL AR BR CR : ℝ} (h2 : 2 ≤ n) (hm : Harmless n h k) (t : Nat → ℝ) :
    Conducted g n h k S Q AL BL CL AR BR CR t ↔ Steady g n h k S Q AL BL CL AR BR CR t := by
  have hin : ∀ i, 1 ≤ i → i + 1 < n → ∀ J, Fourier (k (i - 1)) (h i) (k i) (h (i - 1)) (S i) (t (i - 1)) (t i) J ↔
      Fourier (k (i - 1)) (h (i - 1)) (k i) (h i) (S i) (t (i - 1)) (t i) J := fun i i1 i2 J => by
    rcases hm.inner i i1 i2 with e | e
    · rw [e]
    · rw [e]
      constructor
      · rintro ⟨x, x1, x2⟩
        exact ⟨t (i - 1) + t i - x, by rw [x2]; ring, by rw [x1]; ring⟩
      · rintro ⟨x, x1, x2⟩
        exact ⟨t (i - 1) + t i - x, by rw [x2]; ring, by rw [x1]; ring⟩
  obtain ⟨lk, lh⟩ := hm.last
  have h3 : (if 2 < n then h (n - 3) else h (n - 2)) = h (n - 1) := by
    split_ifs with hc
    · rw [hm.third hc, lh]
    · exact lh
  constructor
  · rintro ⟨J, I, c1, c2, c3, c4, c5, c6, c7⟩
    rw [h3, lh] at c5
    have eI : I = J (n - 1) := by
      obtain ⟨x, x1, x2⟩ := c4
      obtain ⟨y, y1, y2⟩ := c5
      have e1 : J (n - 1) + J (n - 1) = S (n - 1) * (k (n - 1) * ((t (n - 2) - t (n - 1)) / (h (n - 1) / 2))) := by
        nth_rw 1 [x1]
        rw [x2]
        ring
      have e2 : I + I = S (n - 1) * (k (n - 1) * ((t (n - 2) - t (n - 1)) / (h (n - 1) / 2))) := by
        nth_rw 1 [y1]
        rw [y2]
        ring
      linarith
    refine ⟨J, c1, c2, fun i i1 i2 => ?_, fun i hi => ?_⟩
    · by_cases hl : i + 1 < n
      · exact (hin i i1 hl _).1 (c3 i i1 hl)
      · obtain rfl : i = n - 1 := by omega
        rw [show n - 1 - 1 = n - 2 by omega, lk, lh]
        exact c4
    · by_cases hl : i + 1 < n
      · exact c6 i hl
      · obtain rfl : i = n - 1 := by omega
        rw [show n - 1 + 1 = n by omega, ← eI]
        exact c7
  · rintro ⟨J, c1, c2, c3, c4⟩
    have c5 := c3 (n - 1) (by omega) (by omega)
    rw [show n - 1 - 1 = n - 2 by omega, lk, lh] at c5
    refine ⟨J, J (n - 1), c1, c2, fun i i1 i2 => (hin i i1 i2 _).2 (c3 i i1 (by omega)), c5, by rw [h3, lh]; exact c5, fun i hi => c4 i (by omega), ?_⟩
    have := c4 (n - 1) (by omega)
    rwa [show n - 1 + 1 = n by omega] at this

theorem Admissible.determined {d : Data} (ph : Physical d) {AL BL AR BR : ℝ} (h : Admissible d AL BL AR BR) :
    (d.geom = .slab → 0 < d.size.v 0 / (2 * d.k.v 0) * AL + BL) ∧
      0 < d.size.v (d.cells - 1) / (2 * d.k.v (d.cells - 1)) * AR + BR := by
  have h2 := ph.two
  have key : ∀ {s k A B : ℝ}, 0 < s → 0 < k → 0 ≤ A → 0 ≤ B → 0 < A + B → 0 < s / (2 * k) * A + B := by
    intro s k A B hs hk hA hB hAB
    rcases hA.eq_or_lt with h | h
    · subst h; simp; linarith
    · have : 0 < s / (2 * k) * A := by positivity
      linarith
  exact ⟨fun hg => key (ph.size_pos 0 (by omega)) (ph.k_pos 0 (by omega)) h.AL_nonneg h.BL_nonneg (h.left hg),
    key (ph.size_pos _ (by omega)) (ph.k_pos _ (by omega)) h.AR_nonneg h.BR_nonneg h.right⟩

/-- a field for which every row dominates the row of the constant field `m` is at least `m` -/
theorem system_min {d : Data} (ph : Physical d) {AL BL AR BR : ℝ} (ha : Admissible d AL BL AR BR)
    {T : Mat ℝ} (hT : ∀ i j, i < d.cells → j < d.cells → T.m i j = tm d i j +
        (if i = 0 ∧ j = 0 ∧ d.geom = .slab then bl d AL BL AL else 0) +
        (if i = d.cells - 1 ∧ j = d.cells - 1 then br d AR BR AR else 0)) {x : Nat → ℝ}
    (hx : ∀ i, i < d.cells → 0 ≤ ∑ j ∈ range d.cells, T.m i j * x j) : ∀ i, i < d.cells → 0 ≤ x i := by
  obtain ⟨pL, pR⟩ := ha.determined ph
  have h2 := ph.two
  have hsc : 0 < d.surf.v d.cells := by
    have := ph.surf_pos (d.cells - 1) (by omega)
    rwa [show d.cells - 1 + 1 = d.cells from by omega] at this
  have hbl : d.geom = .slab → 0 ≤ bl d AL BL AL := fun hg => div_nonneg ha.AL_nonneg (pL hg).le
  have hbr : 0 ≤ br d AR BR AR := div_nonneg (mul_nonneg ha.AR_nonneg hsc.le) pR.le
  refine row_min (l := gl d) (r := gr d)
    (a := fun i => (if i = 0 ∧ d.geom = .slab then bl d AL BL AL else 0) + (if i = d.cells - 1 then br d AR BR AR else 0))
    (fun i h1 h => gl_pos ph h1 h) (fun i h => gr_pos ph h) (by simp [gl]) (by simp [gr]) ?_ ?_ ?_
  · intro i hi
    split_ifs with c1 c2 c2
    · exact add_nonneg (hbl c1.2) hbr
    · have := hbl c1.2; linarith
    · linarith
    · simp
  · rcases ha.tied with h | ⟨hg, h⟩
    · refine ⟨d.cells - 1, by omega, ?_⟩
      rw [if_neg (by omega), if_pos rfl, zero_add]
      exact div_pos (mul_pos h hsc) pR
    · refine ⟨0, by omega, ?_⟩
      rw [if_pos ⟨rfl, hg⟩, if_neg (by omega), add_zero]
      exact div_pos h (pL hg)
  · intro i hi
    rw [← system_row hT x hi]
    exact hx i hi

/-- the constant field in the system -/
theorem system_const {d : Data} {a b : ℝ} {T : Mat ℝ}
    (hT : ∀ i j, i < d.cells → j < d.cells → T.m i j = tm d i j +
      (if i = 0 ∧ j = 0 ∧ d.geom = .slab then a else 0) + (if i = d.cells - 1 ∧ j = d.cells - 1 then b else 0))
    (m : ℝ) {i : Nat} (hi : i < d.cells) : ∑ j ∈ range d.cells, T.m i j * m =
      (if i = 0 ∧ d.geom = .slab then a * m else 0) + (if i = d.cells - 1 then b * m else 0) := by
  rw [system_row hT (fun _ => m) hi]
  simp only [sub_self, mul_zero, zero_add]
  rw [add_mul, ite_mul, ite_mul, zero_mul]

open scoped Classical in
/-- what the largest difference of two finite fields is -/
theorem maxDiff_ok {x y : Vec Fl} (hn : x.n = y.n) {u v : Nat → ℝ} (hx : ∀ i < x.n, x.v i = .fin (u i))
    (hy : ∀ i < x.n, y.v i = .fin (v i)) :
    ∃ M, maxDiff x y = ok (.fin M) ∧ (∀ i < x.n, |u i - v i| ≤ M) ∧ (M = 0 ∨ ∃ i < x.n, M = |u i - v i|) := by
  obtain ⟨m, e, M, rfl, h1, h2⟩ := loop_inv (n := x.n) (s := Fl.fin 0)
    (body := fun i m => do
      let a ← x.get i
      let b ← y.get i
      let diff := (a.sub b).abs
      ok (if m.lt diff then diff else m))
    (fun i m => ∃ M, m = .fin M ∧ (∀ j < i, |u j - v j| ≤ M) ∧ (M = 0 ∨ ∃ j < i, M = |u j - v j|))
    ⟨0, rfl, by simp, Or.inl rfl⟩
    (by
      rintro i m hi ⟨M, rfl, h1, h2⟩
      rw [Vec.get_ok hi, ok_bind, Vec.get_ok (by omega), ok_bind, hx i hi, hy i hi]
      dsimp only [Fl.sub, Fl.abs]
      by_cases hc : M < |u i - v i|
      · refine ⟨_, by rw [if_pos (show (Fl.fin M).lt (.fin |u i - v i|) from hc)], |u i - v i|, rfl, fun j hj => ?_, Or.inr ⟨i, by omega, rfl⟩⟩
        by_cases hji : j = i
        · rw [hji]
        · exact (h1 j (by omega)).trans hc.le
      · refine ⟨_, by rw [if_neg (show ¬ (Fl.fin M).lt (.fin |u i - v i|) from hc)], M, rfl, fun j hj => ?_, ?_⟩
        · by_cases hji : j = i
          · rw [hji]; exact not_lt.1 hc
          · exact h1 j (by omega)
        · rcases h2 with h | ⟨j, hj, h⟩
          · exact Or.inl h
          · exact Or.inr ⟨j, by omega, h⟩)
  exact ⟨M, e, h1, h2⟩

/-- the test of the iteration on finite fields -/
theorem accept_iff {x y : Vec Fl} (h0 : 0 < x.n) (hn : x.n = y.n) (hx : AllFin x) (hy : AllFin y) {acc : ℝ} :
    ∃ m, maxDiff x y = ok m ∧ (m.lt (.fin acc) ↔ Agree x y acc) := by
  have hx' : ∃ u : Nat → ℝ, ∀ i < x.n, x.v i = .fin (u i) := by
    choose! u hu using hx
    exact ⟨u, hu⟩
  have hy' : ∃ u : Nat → ℝ, ∀ i < x.n, y.v i = .fin (u i) := by
    choose! u hu using hy
    exact ⟨u, fun i hi => hu i (by omega)⟩
  obtain ⟨u, hu⟩ := hx'
  obtain ⟨v, hv⟩ := hy'
  obtain ⟨M, e, h1, h2⟩ := maxDiff_ok hn hu hv
  refine ⟨_, e, ?_⟩
  show M < acc ↔ _
  constructor
  · intro h i hi
    exact ⟨u i, v i, hu i hi, hv i hi, lt_of_le_of_lt (h1 i hi) h⟩
  · intro h
    have key : ∀ i < x.n, |u i - v i| < acc := by
      intro i hi
      obtain ⟨a, b, ha, hb, hab⟩ := h i hi
      rw [hu i hi] at ha
      rw [hv i hi] at hb
      cases ha; cases hb
      exact hab
    rcases h2 with h2 | ⟨i, hi, h2⟩
    · rw [h2]; exact lt_of_le_of_lt (abs_nonneg _) (key 0 h0)
    · rw [h2]; exact key i hi

theorem heatLoop_ok {field : Nat → Vec Fl → Vec Fl} {init : Vec Fl} {acc : ℝ} {x : Vec Fl} {j : Nat} :
    ∀ fuel i, heatLoop field acc fuel i (fields field init i) = ok (x, j) →
      i ≤ j ∧ j < i + fuel ∧ x = fields field init (j + 1) ∧
      (∃ m, maxDiff (fields field init (j + 1)) (fields field init j) = ok m ∧ m.lt (.fin acc)) ∧
      ∀ k, i ≤ k → k < j → ∃ m, maxDiff (fields field init (k + 1)) (fields field init k) = ok m ∧ ¬ m.lt (.fin acc) := by
  intro fuel
  induction fuel with
  | zero => intro i h; simp [heatLoop] at h
  | succ fuel ih =>
    intro i h
    rw [heatLoop] at h
    obtain ⟨m, hm, h⟩ := bind_eq_ok.1 h
    by_cases hc : m.lt (.fin acc)
    · rw [if_pos hc] at h
      cases h
      exact ⟨le_rfl, by omega, rfl, ⟨m, hm, hc⟩, fun k h1 h2 => by omega⟩
    · rw [if_neg hc] at h
      obtain ⟨h1, h2, h3, h4, h5⟩ := ih (i + 1) h
      refine ⟨by omega, by omega, h3, h4, fun k hk1 hk2 => ?_⟩
      by_cases hki : k = i
      · rw [hki]; exact ⟨m, hm, hc⟩
      · exact h5 k (by omega) hk2

theorem heatLoop_exit {field : Nat → Vec Fl → Vec Fl} {init : Vec Fl} {acc : ℝ} :
    ∀ fuel i, (∀ k, i ≤ k → k < i + fuel →
        ∃ m, maxDiff (fields field init (k + 1)) (fields field init k) = ok m ∧ ¬ m.lt (.fin acc)) →
      heatLoop field acc fuel i (fields field init i) = exit := by
  intro fuel
  induction fuel with
  | zero => intro i _; rfl
  | succ fuel ih =>
    intro i h
    obtain ⟨m, hm, hc⟩ := h i le_rfl (by omega)
    rw [heatLoop]
    have hm' : maxDiff (field i (fields field init i)) (fields field init i) = ok m := hm
    rw [hm', ok_bind, if_neg hc]
    exact ih (i + 1) (fun k h1 h2 => h k (by omega) (by omega))

theorem heatLoop_stops {field : Nat → Vec Fl → Vec Fl} {init : Vec Fl} {acc : ℝ} :
    ∀ fuel i, (∀ k, ∃ m, maxDiff (fields field init (k + 1)) (fields field init k) = ok m) →
      heatLoop field acc fuel i (fields field init i) = exit ∨
        ∃ x j, heatLoop field acc fuel i (fields field init i) = ok (x, j) := by
  intro fuel
  induction fuel with
  | zero => intro i _; exact Or.inl rfl
  | succ fuel ih =>
    intro i h
    obtain ⟨m, hm⟩ := h i
    rw [heatLoop]
    have hm' : maxDiff (field i (fields field init i)) (fields field init i) = ok m := hm
    rw [hm', ok_bind]
    by_cases hc : m.lt (.fin acc)
    · rw [if_pos hc]; exact Or.inr ⟨_, _, rfl⟩
    · rw [if_neg hc]; exact ih (i + 1) h

end

end Verif.Heat
