import Verif.CPM.Model
import Verif.CPM.Analysis
import Verif.CPM.SlabLemmas
import Verif.Core.Fills
import Mathlib.Algebra.BigOperators.Intervals
import Mathlib.Algebra.BigOperators.Ring.Finset
import Mathlib.Algebra.Order.BigOperators.Group.Finset
import Mathlib.Tactic.IntervalCases
import Mathlib.Tactic.NormNum
import Mathlib.Tactic.Ring

/-! Helper lemmas: tracks and probabilities of cylinder and sphere in closed form. -/

namespace Verif.CPM

open Verif Outcome Finset

noncomputable section

/-! ### rays -/

theorem abscissa_n : abscissa.n = rays := rfl

theorem weights_n : weights.n = rays := rfl

theorem abscissa_bounds {k : Nat} (hk : k < rays) : 0 ≤ abscissa.v k ∧ abscissa.v k ≤ 1 := by
  unfold rays at hk
  interval_cases k <;> norm_num [abscissa, Vec.ofList]

theorem weights_nonneg {k : Nat} (hk : k < rays) : 0 ≤ weights.v k := by
  unfold rays at hk
  interval_cases k <;> norm_num [weights, Vec.ofList]

theorem weights_sum : ∑ k ∈ range rays, weights.v k = 1 / 2 := by
  norm_num [rays, sum_range_succ, weights, Vec.ofList]

/-- distance of a ray from the centre -/
def zray (d : Data) (m k : Nat) : ℝ := d.radii.v (m + 1) - (d.radii.v (m + 1) - d.radii.v m) * abscissa.v k ^ 2

theorem zray_bounds {d : Data} (mesh : RoundMesh d) {m k : Nat} (hm : m < d.cells) (hk : k < rays) :
    d.radii.v m ≤ zray d m k ∧ zray d m k ≤ d.radii.v (m + 1) := by
  have h1 := sub_pos.2 (mesh.incr m hm)
  obtain ⟨h2, h3⟩ := abscissa_bounds hk
  have h4 : abscissa.v k ^ 2 ≤ 1 := by nlinarith
  have h5 : 0 ≤ abscissa.v k ^ 2 := sq_nonneg _
  unfold zray
  constructor <;> nlinarith

theorem radii_nonneg {d : Data} (mesh : RoundMesh d) {i : Nat} (hi : i ≤ d.cells) : 0 ≤ d.radii.v i := by
  induction i with
  | zero => exact mesh.first
  | succ i ih => exact (ih (by omega)).trans (mesh.incr i (by omega)).le

theorem radii_mono {d : Data} (mesh : RoundMesh d) {i j : Nat} (hij : i ≤ j) (hj : j ≤ d.cells) : d.radii.v i ≤ d.radii.v j := by
  induction j with
  | zero => rw [Nat.le_zero.1 hij]
  | succ j ih =>
    rcases eq_or_lt_of_le hij with rfl | h
    · exact le_rfl
    · exact (ih (by omega) (by omega)).trans (mesh.incr j (by omega)).le

theorem halfChord_mono {R R' z : ℝ} (hR : 0 ≤ R) (h : R ≤ R') : halfChord R z ≤ halfChord R' z := by
  unfold halfChord
  by_cases h1 : z < R
  · rw [if_pos h1, if_pos (h1.trans_le h)]
    exact Real.sqrt_le_sqrt (by nlinarith)
  · rw [if_neg h1]
    by_cases h2 : z < R'
    · rw [if_pos h2]; exact Real.sqrt_nonneg _
    · rw [if_neg h2]

theorem halfPath_succ (d : Data) (h : Nat) (z : ℝ) (a : Nat) : halfPath d h z (a + 1) =
    halfPath d h z a + (halfChord (d.radii.v (a + 1)) z - halfChord (d.radii.v a) z) * d.tot.m h a := sum_range_succ _ _

theorem halfPath_step {d : Data} (mesh : RoundMesh d) {h : Nat} (ht : ∀ i, i < d.cells → 0 < d.tot.m h i) (z : ℝ) {a : Nat}
    (ha : a < d.cells) : halfPath d h z a ≤ halfPath d h z (a + 1) := by
  rw [halfPath_succ]
  have := halfChord_mono (z := z) (radii_nonneg mesh ha.le) (mesh.incr a ha).le
  have := mul_nonneg (sub_nonneg.2 this) (ht a ha).le
  linarith

theorem halfPath_mono {d : Data} (mesh : RoundMesh d) {h : Nat} (ht : ∀ i, i < d.cells → 0 < d.tot.m h i) (z : ℝ) {a b : Nat}
    (hab : a ≤ b) (hb : b ≤ d.cells) : halfPath d h z a ≤ halfPath d h z b := by
  induction b with
  | zero => rw [Nat.le_zero.1 hab]
  | succ b ih =>
    rcases eq_or_lt_of_le hab with rfl | h'
    · exact le_rfl
    · exact (ih (by omega) (by omega)).trans (halfPath_step mesh ht z (by omega))

theorem halfPath_nonneg {d : Data} (mesh : RoundMesh d) {h : Nat} (ht : ∀ i, i < d.cells → 0 < d.tot.m h i) (z : ℝ) {a : Nat}
    (ha : a ≤ d.cells) : 0 ≤ halfPath d h z a := by
  have := halfPath_mono mesh ht z (Nat.zero_le a) ha
  rwa [show halfPath d h z 0 = 0 from by simp [halfPath]] at this

/-- the chord does not meet the inner cells -/
theorem halfPath_zero {d : Data} (mesh : RoundMesh d) (h : Nat) {z : ℝ} {m : Nat} (hm : m ≤ d.cells) (hz : d.radii.v m ≤ z) :
    halfPath d h z m = 0 := by
  unfold halfPath
  refine sum_eq_zero (fun l hl => ?_)
  rw [mem_range] at hl
  have h1 := radii_mono mesh (show l ≤ m by omega) hm
  have h2 := radii_mono mesh (show l + 1 ≤ m by omega) hm
  unfold halfChord
  rw [if_neg (by linarith), if_neg (by linarith)]
  ring

theorem sqrt_halfChord {R z : ℝ} (hz : z ≤ R) : Real.sqrt (R ^ 2 - z ^ 2) = halfChord R z := by
  unfold halfChord
  by_cases h : z < R
  · rw [if_pos h]
  · rw [if_neg h, le_antisymm hz (not_lt.1 h), sub_self, Real.sqrt_zero]

/-! ### tracks -/

theorem roundTracks_ok {d : Data} (wf : WellFormed d) (mesh : RoundMesh d) :
    ∃ Z, roundTracks d = ok Z ∧ (Z.1.dom = fun x => x.1 < d.cells ∧ x.2.1 < d.cells ∧ x.2.2 < rays) ∧ Z.2.dom = D4 d ∧
      (∀ k j i, k ≤ j → j < d.cells → i < rays → Z.1.v (k, j, i) = zray d k i) ∧
      (∀ h k j i, h < d.energies → k ≤ j → j < d.cells → i < rays →
        Z.2.v (k, j, i, h) = halfPath d h (zray d k i) (j + 1)) := by
  classical
  have wr := wf.radii_n
  have w1 := wf.tot_r
  have w2 := wf.tot_c
  have f1 : Fills (PairGood (fun x : ℕ × ℕ × ℕ => x.1 < d.cells ∧ x.2.1 < d.cells ∧ x.2.2 < rays)) (pairV (K := ℝ)) (fun _ => False)
      (fun S => loop (fun k S => loopFrom k (fun j S => loop (fun i (S : Ten3 × Ten3) => do
    let r1 ← d.radii.get (k + 1)
    let r0 ← d.radii.get k
    let x ← abscissa.get i
    let zz ← S.1.set (k, j, i) (r1 - (r1 - r0) * x ^ 2)
    let rj ← d.radii.get (j + 1)
    let z ← zz.get (k, j, i)
    let t ← fsqrt (rj ^ 2 - z ^ 2)
    let tr ← S.2.set (k, j, i) t
    ok (zz, tr)) rays S) (d.cells - k) S) d.cells S)
      (fun x => ∃ k, k < d.cells ∧ ∃ j, k ≤ j ∧ j < k + (d.cells - k) ∧ ∃ i, i < rays ∧ x.2 = (k, j, i))
      (fun x => if x.1 = true then zray d x.2.1 x.2.2.2 else halfChord (d.radii.v (x.2.2.1 + 1)) (zray d x.2.1 x.2.2.2)) := by
    refine Fills.loop (fun k hk => Fills.loopFrom (S := fun j (x : Bool × ℕ × ℕ × ℕ) => ∃ i, i < rays ∧ x.2 = (k, j, i)) (fun j hkj hj =>
      Fills.loop (fun i hi => ?_)))
    refine (Fills.pairSet (p := (k, j, i)) (a := zray d k i) (b := halfChord (d.radii.v (j + 1)) (zray d k i))
      ⟨hk, by show j < d.cells; omega, hi⟩ (by simp) (by simp)).congr ?_ (fun _ => Iff.rfl)
    rintro ⟨A, B⟩ ⟨gA, gB⟩ _
    dsimp only at gA gB ⊢
    have hA : A.dom (k, j, i) := by rw [gA]; exact ⟨hk, by show j < d.cells; omega, hi⟩
    rw [Vec.get_ok (by omega), ok_bind, Vec.get_ok (by omega), ok_bind, Vec.get_ok (by rw [abscissa_n]; exact hi), ok_bind,
      Arr.set_ok hA, Arr.set_ok hA, ok_bind, ok_bind, Vec.get_ok (by omega), ok_bind, Arr.get_ok (by exact hA), ok_bind]
    dsimp only
    rw [if_pos rfl]
    have hz := zray_bounds mesh hk hi
    have hm := radii_mono mesh (show k + 1 ≤ j + 1 by omega) (show j + 1 ≤ d.cells by omega)
    have hzj : zray d k i ≤ d.radii.v (j + 1) := hz.2.trans hm
    have hz0 : 0 ≤ zray d k i := (radii_nonneg mesh hk.le).trans hz.1
    change (fsqrt (d.radii.v (j + 1) ^ 2 - zray d k i ^ 2) >>= _) = _
    rw [fsqrt, if_neg (not_lt.2 (by nlinarith)), ok_bind, sqrt_halfChord hzj]
    rfl
  obtain ⟨Z, eZ, gZ, vZ⟩ := f1 (Arr.zero3 d.cells d.cells rays, Arr.zero3 d.cells d.cells rays) ⟨rfl, rfl⟩ (fun _ h => h.elim)
  have z1 : ∀ k j i, k ≤ j → j < d.cells → i < rays → Z.1.v (k, j, i) = zray d k i := by
    intro k j i hkj hj hi
    have := (vZ (true, k, j, i)).1 ⟨k, by omega, j, hkj, by omega, i, hi, rfl⟩
    simpa [pairV] using this
  have z2 : ∀ k j i, k ≤ j → j < d.cells → i < rays → Z.2.v (k, j, i) = halfChord (d.radii.v (j + 1)) (zray d k i) := by
    intro k j i hkj hj hi
    have := (vZ (false, k, j, i)).1 ⟨k, by omega, j, hkj, by omega, i, hi, rfl⟩
    simpa [pairV] using this
  have dZ : ∀ x : ℕ × ℕ × ℕ, x.1 < d.cells ∧ x.2.1 < d.cells ∧ x.2.2 < rays → Z.2.dom x := fun x hx => by rw [gZ.2]; exact hx
  unfold roundTracks
  dsimp only at eZ
  rw [eZ, ok_bind]
  have f2 : Fills (ArrGood (D4 d)) (fun A : Ten4 => A.v) (fun _ => False) (fun T =>
      loop (fun h T => loop (fun k T => loop (fun i T => loopFrom k (fun j (T : Ten4) =>
    if j = k then do
      let t ← Z.2.get (k, j, i)
      let s ← d.tot.get h j
      T.set (k, j, i, h) (t * s)
    else do
      let t ← Z.2.get (k, j, i)
      let u ← Z.2.get (k, j - 1, i)
      let s ← d.tot.get h j
      let p ← T.get (k, j - 1, i, h)
      T.set (k, j, i, h) ((t - u) * s + p)) (d.cells - k) T) rays T) d.cells T) d.energies T)
      (fun x => ∃ h, h < d.energies ∧ ∃ k, k < d.cells ∧ ∃ i, i < rays ∧ ∃ j, k ≤ j ∧ j < k + (d.cells - k) ∧ x = (k, j, i, h))
      (fun x => halfPath d x.2.2.2 (zray d x.1 x.2.2.1) (x.2.1 + 1)) := by
    refine Fills.loop (fun h hh => Fills.loop (fun k hk => Fills.loop (fun i hi =>
      Fills.loopFrom (S := fun j x => x = (k, j, i, h)) (fun j hkj hj => ?_))))
    have hj' : j < d.cells := by omega
    refine (Fills.arrSet (p := (k, j, i, h)) (a := halfPath d h (zray d k i) (j + 1)) ⟨hk, hj', hi, hh⟩ rfl).congr ?_
      (fun _ => Iff.rfl)
    intro T hT hkn
    have hz := zray_bounds mesh hk hi
    by_cases hjk : j = k
    · subst hjk
      rw [if_pos rfl, Arr.get_ok (dZ _ ⟨hk, hk, hi⟩), ok_bind, Mat.get_ok (by omega) (by omega), ok_bind, z2 j j i le_rfl hk hi,
        halfPath_succ, halfPath_zero mesh h hk.le hz.1,
        show halfChord (d.radii.v j) (zray d j i) = 0 from if_neg (not_lt.2 hz.1), sub_zero, zero_add]
    · have hTd : T.dom (k, j - 1, i, h) := by
        rw [show T.dom = D4 d from hT]; exact ⟨hk, by show j - 1 < d.cells; omega, hi, hh⟩
      rw [if_neg hjk, Arr.get_ok (dZ _ ⟨hk, hj', hi⟩), ok_bind, Arr.get_ok (dZ _ ⟨hk, by show j - 1 < d.cells; omega, hi⟩), ok_bind,
        Mat.get_ok (by omega) (by omega), ok_bind, Arr.get_ok hTd, ok_bind, z2 k j i hkj hj' hi,
        z2 k (j - 1) i (by omega) (by omega) hi, hkn (k, j - 1, i, h) (Or.inr ⟨j - 1, by omega, by omega, rfl⟩), halfPath_succ _ _ _ j]
      dsimp only
      rw [show j - 1 + 1 = j by omega, add_comm (halfPath _ _ _ _)]
  obtain ⟨T, eT, gT, vT⟩ := f2 (Arr.zero4 d.cells d.cells rays d.energies) rfl (fun _ h => h.elim)
  dsimp only at eT
  rw [eT, ok_bind]
  refine ⟨(Z.1, T), rfl, gZ.1, gT, z1, ?_⟩
  intro h k j i hh hkj hj hi
  exact (vT (k, j, i, h)).1 ⟨h, hh, k, by omega, i, hi, j, hkj, by omega, rfl⟩

/-! ### chord sets -/

/-- twice integrated transmission between boundaries `a` and `b`, same side minus opposite side -/
def hh (d : Data) (K : ℝ → ℝ) (h : Nat) (z : ℝ) (a b : Nat) : ℝ :=
  K (halfPath d h z b - halfPath d h z a) - K (halfPath d h z b + halfPath d h z a)

/-- contribution of one ray to `CSet1` -/
def ray1 (d : Data) (K : ℝ → ℝ) (h : Nat) (z : ℝ) (i j : Nat) : ℝ := hh d K h z (i + 1) (j + 1) - hh d K h z i (j + 1)

/-- contribution of one ray to `CSet2` -/
def ray2 (d : Data) (K : ℝ → ℝ) (h : Nat) (z : ℝ) (i : Nat) : ℝ :=
  hh d K h z (i + 1) (i + 1) - 2 * hh d K h z i (i + 1) + hh d K h z i i

/-- weight of a ray -/
def wray (d : Data) (R : Shape) (m k : Nat) : ℝ := weights.v k * (d.radii.v (m + 1) - d.radii.v m) * R.ray (zray d m k)

section

variable {d : Data} {R : Shape} {Z : Ten3 × Ten4}

/-- what is known about the tracks -/
structure Tracks (d : Data) (Z : Ten3 × Ten4) : Prop where
  dom1 : Z.1.dom = fun x => x.1 < d.cells ∧ x.2.1 < d.cells ∧ x.2.2 < rays
  dom2 : Z.2.dom = D4 d
  zz : ∀ k j i, k ≤ j → j < d.cells → i < rays → Z.1.v (k, j, i) = zray d k i
  tau : ∀ h k j i, h < d.energies → k ≤ j → j < d.cells → i < rays → Z.2.v (k, j, i, h) = halfPath d h (zray d k i) (j + 1)

theorem paths_ok (mesh : RoundMesh d) (tr : Tracks d Z) {h m i j k : Nat} (hh' : h < d.energies) (hmi : m ≤ i) (hij : i ≤ j)
    (hj : j < d.cells) (hk : k < rays) : ∃ p, paths Z.2 h m i j k = ok p ∧
      (∀ K : ℝ → ℝ, K p.2.1 - K p.2.2.2.2 + K p.2.2.2.1 - K p.1 = ray1 d K h (zray d m k) i j) ∧
      (i = j → ∀ K : ℝ → ℝ, 2 * K p.2.1 + 2 * (K p.2.2.2.1 - K p.1) - K p.2.2.2.2 - K p.2.2.1 = ray2 d K h (zray d m k) i) := by
  have hm : m < d.cells := by omega
  have hdom : ∀ a, a < d.cells → Z.2.dom (m, a, k, h) := fun a ha => by rw [tr.dom2]; exact ⟨hm, ha, hk, hh'⟩
  have hz := zray_bounds mesh hm hk
  unfold paths pathsB
  by_cases hi : m < i
  · rw [if_pos hi, Arr.get_ok (hdom j hj), ok_bind, Arr.get_ok (hdom (i - 1) (by omega)), ok_bind,
      Arr.get_ok (hdom (j - 1) (by omega)), ok_bind, ok_bind, Arr.get_ok (hdom i (by omega)), ok_bind]
    refine ⟨_, rfl, ?_, ?_⟩
    · intro K
      dsimp only
      rw [tr.tau h m j k hh' (by omega) hj hk, tr.tau h m (i - 1) k hh' (by omega) (by omega) hk,
        tr.tau h m i k hh' hmi (by omega) hk, show i - 1 + 1 = i by omega]
      unfold ray1 hh
      rw [show ∀ a b : ℝ, a - b + 2 * b = a + b from fun a b => by ring,
        show ∀ a b : ℝ, a - b + 2 * b = a + b from fun a b => by ring]
      ring
    · rintro rfl K
      dsimp only
      rw [tr.tau h m i k hh' hmi hj hk, tr.tau h m (i - 1) k hh' (by omega) (by omega) hk, show i - 1 + 1 = i by omega]
      unfold ray2 hh
      rw [show ∀ a b : ℝ, a - b + 2 * b = a + b from fun a b => by ring,
        show ∀ a b : ℝ, a - b + 2 * b = a + b from fun a b => by ring,
        show ∀ a b : ℝ, a - b + 2 * b = a + b from fun a b => by ring, sub_self, sub_self]
      ring
  · have : m = i := by omega
    subst this
    have h0 := halfPath_zero mesh h hm.le hz.1
    rw [if_neg hi, ok_bind, Arr.get_ok (hdom j hj), ok_bind, Arr.get_ok (hdom m hm), ok_bind]
    refine ⟨_, rfl, ?_, ?_⟩
    · intro K
      dsimp only
      rw [tr.tau h m j k hh' hij hj hk, tr.tau h m m k hh' le_rfl hm hk]
      unfold ray1 hh
      rw [h0, sub_zero, add_zero, show ∀ a b : ℝ, a - b + 2 * b = a + b from fun a b => by ring]
      ring
    · rintro rfl K
      dsimp only
      rw [tr.tau h m m k hh' le_rfl hm hk]
      unfold ray2 hh
      rw [h0, sub_zero, add_zero, show ∀ a b : ℝ, a - b + 2 * b = a + b from fun a b => by ring]
      simp only [sub_self]
      ring_nf

/-- shape of the chord sets -/
abbrev DC (d : Data) : ℕ × ℕ × ℕ → Prop := fun x => x.1 < d.cells ∧ x.2.1 < d.cells ∧ x.2.2 < d.cells

theorem selfStep_ok {p : ℝ × ℝ × ℝ × ℝ × ℝ} {w dr f : ℝ} {m i j : Nat} {C : Ten3} (hC : C.dom (m, i, j)) :
    ∃ C', selfStep R p w dr f m i j C = ok C' ∧ C'.dom = C.dom ∧
      C'.v (m, i, j) = C.v (m, i, j) +
        (if j = i then (2 * R.K p.2.1 + 2 * (R.K p.2.2.2.1 - R.K p.1) - R.K p.2.2.2.2 - R.K p.2.2.1) * w * dr * f else 0) ∧
      ∀ x, x ≠ (m, i, j) → C'.v x = C.v x := by
  classical
  unfold selfStep
  by_cases h : j = i
  · rw [if_pos h, Arr.get_ok hC, ok_bind, Arr.set_ok hC]
    refine ⟨_, rfl, rfl, ?_, fun x hx => if_neg hx⟩
    dsimp only
    rw [if_pos rfl, if_pos h, add_comm]
  · rw [if_neg h]
    exact ⟨C, rfl, rfl, by rw [if_neg h, add_zero], fun _ _ => rfl⟩

theorem rayStep_ok (wf : WellFormed d) (mesh : RoundMesh d) (tr : Tracks d Z) {h m i j k : Nat} (hh' : h < d.energies)
    (hmi : m ≤ i) (hij : i ≤ j) (hj : j < d.cells) (hk : k < rays) :
    Maps (PairGood (DC d)) (pairV (K := ℝ)) (fun C => rayStep d R Z.1 Z.2 h m i j k C) (fun x => x.2 = (m, i, j))
      (fun x o => o + if x.1 = true then ray1 d R.K h (zray d m k) i j * wray d R m k
        else if i = j then ray2 d R.K h (zray d m k) i * wray d R m k else 0) := by
  classical
  rintro ⟨A, B⟩ ⟨gA, gB⟩
  have wr := wf.radii_n
  have hm : m < d.cells := by omega
  have hA : A.dom (m, i, j) := by rw [show A.dom = DC d from gA]; exact ⟨hm, by show i < d.cells; omega, hj⟩
  have hB : B.dom (m, i, j) := by rw [show B.dom = DC d from gB]; exact ⟨hm, by show i < d.cells; omega, hj⟩
  have hZ : Z.1.dom (m, j, k) := by rw [tr.dom1]; exact ⟨hm, hj, hk⟩
  obtain ⟨p, ep, p1, p2⟩ := paths_ok mesh tr hh' hmi hij hj hk
  obtain ⟨B', eB, dB, vB, uB⟩ := selfStep_ok (R := R) (p := p) (w := weights.v k) (dr := d.radii.v (m + 1) - d.radii.v m)
    (f := R.ray (zray d m k)) hB
  unfold rayStep
  dsimp only
  rw [ep, ok_bind, Vec.get_ok (by rw [weights_n]; exact hk), ok_bind, Vec.get_ok (by omega), ok_bind, Vec.get_ok (by omega), ok_bind,
    Arr.get_ok hZ, ok_bind, tr.zz m j k (by omega) hj hk, eB, ok_bind, Arr.get_ok hA, ok_bind, Arr.set_ok hA, ok_bind]
  refine ⟨_, rfl, ⟨gA, dB.trans gB⟩, ?_⟩
  rintro ⟨c, x⟩
  cases c
  · constructor
    · rintro rfl
      simp only [pairV, Bool.false_eq_true, if_false]
      rw [vB]
      congr 1
      by_cases hij' : i = j
      · rw [if_pos hij', if_pos hij'.symm, p2 hij' R.K, wray]; ring
      · rw [if_neg hij', if_neg (Ne.symm hij')]
    · intro hx
      have hx' : x ≠ (m, i, j) := hx
      simp only [pairV, Bool.false_eq_true, if_false]
      exact uB x hx'
  · constructor
    · rintro rfl
      simp only [pairV, if_true]
      rw [p1 R.K, wray, add_comm]
      ring
    · intro hx
      have hx' : x ≠ (m, i, j) := hx
      simp only [pairV, if_true]
      rw [if_neg hx']

theorem chordSets_ok (wf : WellFormed d) (mesh : RoundMesh d) (hV : ∀ i, i < d.cells → d.vol.v i ≠ 0)
    (ht : ∀ h, h < d.energies → ∀ i, i < d.cells → 0 < d.tot.m h i) (tr : Tracks d Z) {h : Nat} (hh' : h < d.energies) :
    ∃ C, chordSets d R Z.1 Z.2 h = ok C ∧ PairGood (DC d) C ∧
      (∀ m i j, m ≤ i → i ≤ j → j < d.cells → C.1.v (m, i, j) =
        (∑ k ∈ range rays, ray1 d R.K h (zray d m k) i j * wray d R m k) * (R.pre / (d.vol.v i * d.tot.m h i))) ∧
      (∀ m i, m ≤ i → i < d.cells → C.2.v (m, i, i) =
        (∑ k ∈ range rays, ray2 d R.K h (zray d m k) i * wray d R m k) * (R.pre / (d.vol.v i * d.tot.m h i))) := by
  classical
  have w1 := wf.tot_r
  have w2 := wf.tot_c
  have w3 := wf.vol_n
  set g : Bool × ℕ × ℕ × ℕ → ℝ → ℝ := fun x o => (o + ∑ k ∈ range rays,
    if x.1 = true then ray1 d R.K h (zray d x.2.1 k) x.2.2.1 x.2.2.2 * wray d R x.2.1 k
        else if x.2.2.1 = x.2.2.2 then ray2 d R.K h (zray d x.2.1 k) x.2.2.1 * wray d R x.2.1 k else 0) *
      (R.pre / (d.vol.v x.2.2.1 * d.tot.m h x.2.2.1)) with hg
  have key : Maps (PairGood (DC d)) (pairV (K := ℝ)) (fun C => loop (fun m C => loopFrom m (fun i C => loopFrom i (fun j C => do
    let C ← loop (fun k C => rayStep d R Z.1 Z.2 h m i j k C) rays C
    let v ← d.vol.get i
    let s ← d.tot.get h i
    let q ← fdiv R.pre (v * s)
    let c1 ← C.1.get (m, i, j)
    let C1 ← C.1.set (m, i, j) (c1 * q)
    let c2 ← C.2.get (m, i, j)
    let C2 ← C.2.set (m, i, j) (c2 * q)
    ok (C1, C2)) (d.cells - i) C) (d.cells - m) C) d.cells C)
      (fun x => ∃ m, m < d.cells ∧ ∃ i, m ≤ i ∧ i < m + (d.cells - m) ∧ ∃ j, i ≤ j ∧ j < i + (d.cells - i) ∧ x.2 = (m, i, j)) g := by
    refine Maps.loop (S := fun m (x : Bool × ℕ × ℕ × ℕ) => ∃ i, m ≤ i ∧ i < m + (d.cells - m) ∧ ∃ j, i ≤ j ∧ j < i + (d.cells - i) ∧ x.2 = (m, i, j))
      (fun m hm => Maps.loopFrom (S := fun i (x : Bool × ℕ × ℕ × ℕ) => ∃ j, i ≤ j ∧ j < i + (d.cells - i) ∧ x.2 = (m, i, j)) (fun i hmi hi =>
      Maps.loopFrom (S := fun j (x : Bool × ℕ × ℕ × ℕ) => x.2 = (m, i, j)) (fun j hij hj => ?_) ?_) ?_) ?_
    · have hi' : i < d.cells := by omega
      have hj' : j < d.cells := by omega
      have acc := Maps.accum (n := rays) (fun k hk => rayStep_ok (R := R) wf mesh tr hh' hmi hij hj' hk)
      have hsc : Maps (PairGood (DC d)) (pairV (K := ℝ)) (fun C : Ten3 × Ten3 => do
          let v ← d.vol.get i
          let s ← d.tot.get h i
          let q ← fdiv R.pre (v * s)
          let c1 ← C.1.get (m, i, j)
          let C1 ← C.1.set (m, i, j) (c1 * q)
          let c2 ← C.2.get (m, i, j)
          let C2 ← C.2.set (m, i, j) (c2 * q)
          ok (C1, C2)) (fun x => x.2 = (m, i, j)) (fun x o => o * (R.pre / (d.vol.v i * d.tot.m h i))) := by
        rintro ⟨A, B⟩ ⟨gA, gB⟩
        have hA : A.dom (m, i, j) := by rw [show A.dom = DC d from gA]; exact ⟨hm, hi', hj'⟩
        have hB : B.dom (m, i, j) := by rw [show B.dom = DC d from gB]; exact ⟨hm, hi', hj'⟩
        dsimp only
        rw [Vec.get_ok (by omega), ok_bind, Mat.get_ok (by omega) (by omega), ok_bind,
          fdiv_ok (mul_ne_zero (hV i hi') (ht h hh' i hi').ne'), ok_bind, Arr.get_ok hA, ok_bind, Arr.set_ok hA, ok_bind,
          Arr.get_ok hB, ok_bind, Arr.set_ok hB, ok_bind]
        refine ⟨_, rfl, ⟨gA, gB⟩, ?_⟩
        rintro ⟨c, x⟩
        cases c
        · constructor
          · rintro rfl; simp [pairV]
          · intro hx
            have hx' : x ≠ (m, i, j) := hx
            simp [pairV, hx']
        · constructor
          · rintro rfl; simp [pairV]
          · intro hx
            have hx' : x ≠ (m, i, j) := hx
            simp [pairV, hx']
      refine (Maps.comp acc hsc).congr_val ?_
      rintro ⟨c, x⟩ o hx
      have hx' : x = (m, i, j) := hx
      subst hx'
      rw [hg]
    · rintro a b ⟨c, x⟩ _ hab _ rfl h'
      simp only [Prod.mk.injEq] at h'
      omega
    · rintro a b ⟨c, x⟩ _ hab _ ⟨j, _, _, rfl⟩ ⟨j', _, _, h'⟩
      simp only [Prod.mk.injEq] at h'
      omega
    · rintro a b ⟨c, x⟩ hab _ ⟨i, _, _, j, _, _, rfl⟩ ⟨i', _, _, j', _, _, h'⟩
      simp only [Prod.mk.injEq] at h'
      omega
  obtain ⟨C, eC, gC, vC⟩ := key (Arr.zero3 d.cells d.cells d.cells, Arr.zero3 d.cells d.cells d.cells) ⟨rfl, rfl⟩
  refine ⟨C, eC, gC, ?_, ?_⟩
  · intro m i j hmi hij hj
    have := (vC (true, m, i, j)).1 ⟨m, by omega, i, hmi, by omega, j, hij, by omega, rfl⟩
    simpa [pairV, hg, Arr.zero3] using this
  · intro m i hmi hi
    have := (vC (false, m, i, i)).1 ⟨m, by omega, i, hmi, by omega, i, le_rfl, by omega, rfl⟩
    simpa [pairV, hg, Arr.zero3] using this

end

end

end Verif.CPM
