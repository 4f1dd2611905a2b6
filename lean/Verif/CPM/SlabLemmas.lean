import Verif.CPM.Model
import Verif.CPM.Analysis
import Verif.Core.Fills
import Mathlib.Algebra.BigOperators.Intervals
import Mathlib.Algebra.Order.BigOperators.Group.Finset
import Mathlib.Tactic.Ring

/-! Helper lemmas: slab tracks and probabilities in closed form. -/

namespace Verif.CPM

open Verif Outcome Finset

noncomputable section

/-- shape of the track tensor -/
abbrev D4 (d : Data) : ℕ × ℕ × ℕ × ℕ → Prop :=
  fun x => x.1 < d.cells ∧ x.2.1 < d.cells ∧ x.2.2.1 < rays ∧ x.2.2.2 < d.energies

/-- shape of the probability tensor -/
abbrev D3 (d : Data) : ℕ × ℕ × ℕ → Prop := fun x => x.1 < d.cells ∧ x.2.1 < d.cells ∧ x.2.2 < d.energies

theorem slabDelta_ok {d : Data} (wf : WellFormed d) :
    ∃ δ, slabDelta d = ok δ ∧ δ.n = d.cells ∧ ∀ i, i < d.cells → δ.v i = d.radii.v (i + 1) - d.radii.v i := by
  have w := wf.radii_n
  unfold slabDelta
  rw [predIdx_ok (by omega), ok_bind, show d.radii.n - 1 = d.cells by omega]
  refine loop_fill (fun i => d.radii.v (i + 1) - d.radii.v i) d.cells 0 _ ?_
  intro i t hi _
  rw [Vec.get_ok (by omega), ok_bind, Vec.get_ok (by omega), ok_bind]

theorem thick_pos {d : Data} {h k : Nat} (hr : d.radii.v k < d.radii.v (k + 1)) (ht : 0 < d.tot.m h k) : 0 < thick d h k :=
  mul_pos (sub_pos.2 hr) ht

/-- first part of `calcTracks`: optical thickness from cell `i` to cell `j`, both included -/
theorem slabTracks1_ok {d : Data} (wf : WellFormed d) {δ : Vec ℝ} (hn : δ.n = d.cells)
    (hδ : ∀ i, i < d.cells → δ.v i = d.radii.v (i + 1) - d.radii.v i) :
    ∃ T, loop (fun h T => loop (fun i T => loopFrom i (fun j (T : Ten4) =>
    if i = j then do
      let x ← δ.get i
      let s ← d.tot.get h i
      T.set (i, j, 0, h) (x * s)
    else if i = 0 then do
      let x ← δ.get j
      let s ← d.tot.get h j
      let p ← T.get (0, j - 1, 0, h)
      T.set (i, j, 0, h) (x * s + p)
    else do
      let x ← δ.get j
      let s ← d.tot.get h j
      let p ← T.get (0, j - 1, 0, h)
      let q ← T.get (0, i - 1, 0, h)
      T.set (i, j, 0, h) (x * s + p - q)) (d.cells - i) T) d.cells T) d.energies
    (Arr.zero4 d.cells d.cells rays d.energies) = ok T ∧ T.dom = D4 d ∧
    ∀ h i j, h < d.energies → i ≤ j → j < d.cells → T.v (i, j, 0, h) = ∑ k ∈ Ico i (j + 1), thick d h k := by
  have wr := wf.tot_r
  have wc := wf.tot_c
  have key : Fills (ArrGood (D4 d)) (fun A : Ten4 => A.v) (fun _ => False)
      (fun T => loop (fun h T => loop (fun i T => loopFrom i (fun j (T : Ten4) =>
    if i = j then do
      let x ← δ.get i
      let s ← d.tot.get h i
      T.set (i, j, 0, h) (x * s)
    else if i = 0 then do
      let x ← δ.get j
      let s ← d.tot.get h j
      let p ← T.get (0, j - 1, 0, h)
      T.set (i, j, 0, h) (x * s + p)
    else do
      let x ← δ.get j
      let s ← d.tot.get h j
      let p ← T.get (0, j - 1, 0, h)
      let q ← T.get (0, i - 1, 0, h)
      T.set (i, j, 0, h) (x * s + p - q)) (d.cells - i) T) d.cells T) d.energies T)
      (fun x => ∃ h, h < d.energies ∧ ∃ i, i < d.cells ∧ ∃ j, i ≤ j ∧ j < i + (d.cells - i) ∧ x = (i, j, 0, h))
      (fun x => ∑ k ∈ Ico x.1 (x.2.1 + 1), thick d x.2.2.2 k) := by
    refine Fills.loop (fun h hh => Fills.loop (fun i hi => Fills.loopFrom (S := fun j x => x = (i, j, 0, h)) (fun j hij hj => ?_)))
    have hj' : j < d.cells := by omega
    have hr : (0 : ℕ) < rays := by decide
    refine (Fills.arrSet (p := (i, j, 0, h)) (a := ∑ k ∈ Ico i (j + 1), thick d h k) ⟨hi, hj', hr, hh⟩ rfl).congr ?_
      (fun _ => Iff.rfl)
    intro T hT hk
    have hdom : ∀ x, D4 d x → T.dom x := fun x hx => by rw [show T.dom = D4 d from hT]; exact hx
    by_cases h1 : i = j
    · subst h1
      rw [if_pos rfl, Vec.get_ok (by omega), ok_bind, Mat.get_ok (by omega) (by omega), ok_bind, hδ i hi]
      simp [thick]
    · rw [if_neg h1]
      by_cases h2 : i = 0
      · subst h2
        rw [if_pos rfl, Vec.get_ok (by omega), ok_bind, Mat.get_ok (by omega) (by omega), ok_bind,
          Arr.get_ok (hdom _ ⟨hi, by show j - 1 < d.cells; omega, hr, hh⟩), ok_bind, hk (0, j - 1, 0, h) (Or.inr ⟨j - 1, by omega, by omega, rfl⟩), hδ j hj']
        dsimp only
        rw [show j - 1 + 1 = j by omega, sum_Ico_succ_top (Nat.zero_le j), add_comm]
        rfl
      · rw [if_neg h2, Vec.get_ok (by omega), ok_bind, Mat.get_ok (by omega) (by omega), ok_bind,
          Arr.get_ok (hdom _ ⟨by show 0 < d.cells; omega, by show j - 1 < d.cells; omega, hr, hh⟩), ok_bind,
          Arr.get_ok (hdom _ ⟨by show 0 < d.cells; omega, by show i - 1 < d.cells; omega, hr, hh⟩), ok_bind,
          hk (0, j - 1, 0, h) (Or.inl (Or.inr ⟨0, by omega, j - 1, by omega, by omega, rfl⟩)),
          hk (0, i - 1, 0, h) (Or.inl (Or.inr ⟨0, by omega, i - 1, by omega, by omega, rfl⟩)), hδ j hj']
        dsimp only
        rw [show j - 1 + 1 = j by omega, show i - 1 + 1 = i by omega, sum_Ico_succ_top (by omega : i ≤ j),
          ← sum_Ico_consecutive (fun k => thick d h k) (Nat.zero_le i) (by omega : i ≤ j)]
        congr 1
        unfold thick
        ring
  obtain ⟨T, hT, hd, hv⟩ := key (Arr.zero4 d.cells d.cells rays d.energies) rfl (fun _ h => h.elim)
  refine ⟨T, hT, hd, ?_⟩
  intro h i j hh hij hj
  exact (hv (i, j, 0, h)).1 ⟨h, hh, i, by omega, j, hij, by omega, rfl⟩

/-- `calcTracks`: the thickness of the cell itself, and strictly between the cells for two cells -/
theorem slabTracks_ok {d : Data} (wf : WellFormed d) (hr : ∀ i, i < d.cells → d.radii.v i < d.radii.v (i + 1))
    (ht : ∀ h, h < d.energies → ∀ i, i < d.cells → 0 < d.tot.m h i) :
    ∃ T, slabTracks d = ok T ∧ T.dom = D4 d ∧
    ∀ h i j, h < d.energies → i ≤ j → j < d.cells →
      T.v (i, j, 0, h) = if i = j then thick d h i else ∑ k ∈ Ico (i + 1) j, thick d h k := by
  have wr := wf.tot_r
  have wc := wf.tot_c
  obtain ⟨δ, e1, hn, hδ⟩ := slabDelta_ok wf
  obtain ⟨T1, e2, hd1, hv1⟩ := slabTracks1_ok wf hn hδ
  unfold slabTracks
  rw [e1, ok_bind, e2, ok_bind]
  have hpos : ∀ h i j, h < d.energies → j ≤ d.cells → 0 ≤ ∑ k ∈ Ico i j, thick d h k := by
    intro h i j hh hj
    refine sum_nonneg (fun k hk => ?_)
    rw [mem_Ico] at hk
    exact (thick_pos (hr k (by omega)) (ht h hh k (by omega))).le
  have m : Maps (ArrGood (D4 d)) (fun A : Ten4 => A.v)
      (fun T => loop (fun h T => loop (fun i T => loopFrom i (fun j (T : Ten4) => do
    let T ← slabSub d δ h i j T
    let t ← T.get (i, j, 0, h)
    if t < 0 then T.set (i, j, 0, h) 0 else ok T) (d.cells - i) T) d.cells T) d.energies T)
      (fun x => ∃ h, h < d.energies ∧ ∃ i, i < d.cells ∧ ∃ j, i ≤ j ∧ j < i + (d.cells - i) ∧ x = (i, j, 0, h))
      (fun x o => max 0 (if x.1 = x.2.1 then o else o - (thick d x.2.2.2 x.2.1 + thick d x.2.2.2 x.1))) := by
    refine Maps.loop (S := fun h x => ∃ i, i < d.cells ∧ ∃ j, i ≤ j ∧ j < i + (d.cells - i) ∧ x = (i, j, 0, h)) (fun h hh =>
      Maps.loop (S := fun i x => ∃ j, i ≤ j ∧ j < i + (d.cells - i) ∧ x = (i, j, 0, h)) (fun i hi =>
      Maps.loopFrom (S := fun j x => x = (i, j, 0, h)) (fun j hij hj => ?_) ?_) ?_) ?_
    · intro T hT
      have hj' : j < d.cells := by omega
      have hry : (0 : ℕ) < rays := by decide
      have hdom : T.dom (i, j, 0, h) := by rw [show T.dom = D4 d from hT]; exact ⟨hi, hj', hry, hh⟩
      have step1 : ∃ T', slabSub d δ h i j T = ok T' ∧ T'.dom = D4 d ∧
          T'.v (i, j, 0, h) = (if i = j then T.v (i, j, 0, h) else T.v (i, j, 0, h) - (thick d h j + thick d h i)) ∧
          ∀ x, x ≠ (i, j, 0, h) → T'.v x = T.v x := by
        unfold slabSub
        by_cases hij' : i = j
        · refine ⟨T, by rw [if_neg (not_not.2 hij')], hT, by rw [if_pos hij'], fun _ _ => rfl⟩
        · classical
          rw [if_pos hij', Arr.get_ok hdom, ok_bind, Vec.get_ok (by omega), ok_bind, Mat.get_ok (by omega) (by omega), ok_bind,
            Vec.get_ok (by omega), ok_bind, Mat.get_ok (by omega) (by omega), ok_bind, Arr.set_ok hdom]
          refine ⟨_, rfl, hT, ?_, ?_⟩
          · dsimp only
            rw [if_pos rfl, if_neg hij', hδ j hj', hδ i hi]
            rfl
          · intro x hx
            dsimp only
            rw [if_neg hx]
      obtain ⟨T', f1, f2, f3, f4⟩ := step1
      have hdom' : T'.dom (i, j, 0, h) := by rw [f2]; exact ⟨hi, hj', hry, hh⟩
      dsimp only
      rw [f1, ok_bind, Arr.get_ok hdom', ok_bind]
      by_cases hneg : T'.v (i, j, 0, h) < 0
      · classical
        rw [if_pos hneg, Arr.set_ok hdom']
        refine ⟨_, rfl, f2, fun x => ⟨?_, ?_⟩⟩
        · rintro rfl
          dsimp only
          rw [if_pos rfl, ← f3, max_eq_left hneg.le]
        · intro hx
          dsimp only
          rw [if_neg hx, f4 x hx]
      · rw [if_neg hneg]
        refine ⟨_, rfl, f2, fun x => ⟨?_, ?_⟩⟩
        · rintro rfl
          dsimp only
          rw [← f3, max_eq_right (not_lt.1 hneg)]
        · intro hx
          exact f4 x hx
    · rintro a b x _ hab _ rfl h'
      simp only [Prod.mk.injEq] at h'
      omega
    · rintro a b x hab _ ⟨j, _, _, rfl⟩ ⟨j', _, _, h'⟩
      simp only [Prod.mk.injEq] at h'
      omega
    · rintro a b x hab _ ⟨i, _, j, _, _, rfl⟩ ⟨i', _, j', _, _, h'⟩
      simp only [Prod.mk.injEq] at h'
      omega
  obtain ⟨T, e3, hd, hv⟩ := m T1 hd1
  refine ⟨T, e3, hd, ?_⟩
  intro h i j hh hij hj
  refine ((hv (i, j, 0, h)).1 ⟨h, hh, i, by omega, j, hij, by omega, rfl⟩).trans ?_
  dsimp only
  rw [hv1 h i j hh hij hj]
  by_cases hij' : i = j
  · subst hij'
    rw [if_pos rfl, if_pos rfl, Nat.Ico_succ_singleton, sum_singleton]
    exact max_eq_right (thick_pos (hr i hj) (ht h hh i hj)).le
  · rw [if_neg hij', if_neg hij', sum_Ico_succ_top hij, sum_eq_sum_Ico_succ_bot (by omega : i < j)]
    have := hpos h (i + 1) j hh (by omega)
    rw [show thick d h i + ∑ k ∈ Ico (i + 1) j, thick d h k + thick d h j - (thick d h j + thick d h i) =
      ∑ k ∈ Ico (i + 1) j, thick d h k by ring]
    exact max_eq_right this

/-- the entries of the upper triangle -/
def upper (d : Data) (e3 : ℝ → ℝ) (h i j : Nat) : ℝ :=
  if i = j then 1 - 1 / (2 * thick d h i) * (1 - 2 * e3 (thick d h i))
  else 1 / (2 * thick d h i) * (e3 (∑ k ∈ Ico (i + 1) j, thick d h k) - e3 ((∑ k ∈ Ico (i + 1) j, thick d h k) + thick d h i)
    - e3 ((∑ k ∈ Ico (i + 1) j, thick d h k) + thick d h j)
    + e3 ((∑ k ∈ Ico (i + 1) j, thick d h k) + thick d h j + thick d h i))

/-- all entries -/
def slabVal (d : Data) (e3 : ℝ → ℝ) (h i j : Nat) : ℝ :=
  if i ≤ j then upper d e3 h i j
  else upper d e3 h j i * (d.tot.m h j / d.tot.m h i) * (d.vol.v j / d.vol.v i)

theorem slabEntry_ok {d : Data} (hr : ∀ i, i < d.cells → d.radii.v i < d.radii.v (i + 1))
    (ht : ∀ h, h < d.energies → ∀ i, i < d.cells → 0 < d.tot.m h i) {T : Ten4} (hd : T.dom = D4 d)
    (hv : ∀ h i j, h < d.energies → i ≤ j → j < d.cells →
      T.v (i, j, 0, h) = if i = j then thick d h i else ∑ k ∈ Ico (i + 1) j, thick d h k) (e3 : ℝ → ℝ)
    {h i j : Nat} (hh : h < d.energies) (hij : i ≤ j) (hj : j < d.cells) :
    slabEntry e3 T h i j = ok (upper d e3 h i j) := by
  have hi : i < d.cells := by omega
  have hry : (0 : ℕ) < rays := by decide
  have pi := thick_pos (hr i hi) (ht h hh i hi)
  have pj := thick_pos (hr j hj) (ht h hh j hj)
  have hdom : ∀ x, D4 d x → T.dom x := fun x hx => by rw [hd]; exact hx
  have vii := hv h i i hh le_rfl hi
  rw [if_pos rfl] at vii
  have vjj := hv h j j hh le_rfl hj
  rw [if_pos rfl] at vjj
  unfold slabEntry upper
  by_cases hij' : i = j
  · subst hij'
    rw [if_pos rfl, if_pos rfl, Arr.get_ok (hdom _ ⟨hi, hi, hry, hh⟩), ok_bind, vii, fdiv_ok (by positivity), ok_bind, expint3,
      if_neg (not_lt.2 pi.le), ok_bind]
  · have vij := hv h i j hh hij hj
    rw [if_neg hij'] at vij
    have ps : 0 ≤ ∑ k ∈ Ico (i + 1) j, thick d h k := by
      refine sum_nonneg (fun k hk => ?_)
      rw [mem_Ico] at hk
      exact (thick_pos (hr k (by omega)) (ht h hh k (by omega))).le
    rw [if_neg (Ne.symm hij'), if_neg hij', Arr.get_ok (hdom _ ⟨hi, hi, hry, hh⟩), ok_bind, Arr.get_ok (hdom _ ⟨hj, hj, hry, hh⟩),
      ok_bind, Arr.get_ok (hdom _ ⟨hi, hj, hry, hh⟩), ok_bind, vii, vjj, vij, fdiv_ok (by positivity), ok_bind, expint3,
      if_neg (not_lt.2 ps), ok_bind, expint3, if_neg (not_lt.2 (by positivity)), ok_bind, expint3,
      if_neg (not_lt.2 (by positivity)), ok_bind, expint3, if_neg (not_lt.2 (by positivity)), ok_bind]

/-- `calcCPs` of the slab in closed form -/
theorem slabCPs_ok {d : Data} (wf : WellFormed d) (hr : ∀ i, i < d.cells → d.radii.v i < d.radii.v (i + 1))
    (ht : ∀ h, h < d.energies → ∀ i, i < d.cells → 0 < d.tot.m h i) (hV : ∀ i, i < d.cells → d.vol.v i ≠ 0) (e3 : ℝ → ℝ) :
    ∃ G, (slabTracks d >>= slabCPs d e3) = ok G ∧ G.dom = D3 d ∧
      ∀ h i j, h < d.energies → i < d.cells → j < d.cells → G.v (i, j, h) = slabVal d e3 h i j := by
  have wr := wf.tot_r
  have wc := wf.tot_c
  have wv := wf.vol_n
  obtain ⟨T, e1, hd, hv⟩ := slabTracks_ok wf hr ht
  rw [e1, ok_bind]
  unfold slabCPs
  have key := loop_inv (n := d.energies) (s := ((Mat.zero d.cells d.cells, Arr.zero3 d.cells d.cells d.energies) : Mat ℝ × Ten3))
    (body := fun h (S : Mat ℝ × Ten3) => do
    let P ← loop (fun i P => loopFrom i (fun j (P : Mat ℝ) => do
      let x ← slabEntry e3 T h i j
      P.set i j x) (d.cells - i) P) d.cells S.1
    let P ← slabLower d h P
    let G ← loop (fun i G => loop (fun j (G : Ten3) => do
      let p ← P.get i j
      G.set (i, j, h) p) d.cells G) d.cells S.2
    ok (P, G))
    (fun h S => MatGood d.cells d.cells S.1 ∧ S.2.dom = D3 d ∧ ∀ h' i j, h' < h → i < d.cells → j < d.cells →
      S.2.v (i, j, h') = slabVal d e3 h' i j)
    ⟨⟨rfl, rfl⟩, rfl, fun h' _ _ hh => by omega⟩
    (by
      rintro h ⟨P0, G0⟩ hh ⟨gP, gD, gv⟩
      dsimp only at gP gD gv ⊢
      have f1 : Fills (MatGood d.cells d.cells) (matV (K := ℝ)) (fun _ => False) (fun P =>
          loop (fun i P => loopFrom i (fun j (P : Mat ℝ) => do
            let x ← slabEntry e3 T h i j
            P.set i j x) (d.cells - i) P) d.cells P)
          (fun x => ∃ i, i < d.cells ∧ ∃ j, i ≤ j ∧ j < i + (d.cells - i) ∧ x = (i, j)) (fun x => slabVal d e3 h x.1 x.2) := by
        refine Fills.loop (fun i hi => Fills.loopFrom (S := fun j x => x = (i, j)) (fun j hij hj => ?_))
        refine (Fills.matSet (p := i) (q := j) (a := upper d e3 h i j) hi (by omega) ?_).congr ?_ (fun _ => Iff.rfl)
        · dsimp only; rw [slabVal, if_pos hij]
        · intro P _ _
          rw [slabEntry_ok hr ht hd hv e3 hh hij (by omega), ok_bind]
      have f2 : Fills (MatGood d.cells d.cells) (matV (K := ℝ))
          (fun x => False ∨ ∃ i, i < d.cells ∧ ∃ j, i ≤ j ∧ j < i + (d.cells - i) ∧ x = (i, j)) (fun P => slabLower d h P)
          (fun x => ∃ i, i < d.cells ∧ ∃ j, i + 1 ≤ j ∧ j < i + 1 + (d.cells - (i + 1)) ∧ x = (j, i))
          (fun x => slabVal d e3 h x.1 x.2) := by
        refine Fills.loop (fun i hi => Fills.loopFrom (S := fun j x => x = (j, i)) (fun j hij hj => ?_))
        refine (Fills.matSet (p := j) (q := i) (a := slabVal d e3 h j i) (by omega) hi rfl).congr ?_ (fun _ => Iff.rfl)
        intro P gP hk
        have hij' : P.m i j = slabVal d e3 h i j :=
          hk (i, j) (Or.inl (Or.inl (Or.inr ⟨i, hi, j, by omega, by omega, rfl⟩)))
        rw [Mat.get_ok (x := P) (by rw [gP.1]; omega) (by rw [gP.2]; omega), ok_bind, Mat.get_ok (by omega) (by omega), ok_bind,
          Mat.get_ok (by omega) (by omega), ok_bind, fdiv_ok (ht h hh j (by omega)).ne', ok_bind, Vec.get_ok (by omega), ok_bind,
          Vec.get_ok (by omega), ok_bind, fdiv_ok (hV j (by omega)), ok_bind, hij']
        congr 1
        unfold slabVal
        rw [if_pos (by omega), if_neg (by omega)]
      obtain ⟨P, eP, gP', hvP⟩ := (f1.seq f2) P0 gP (fun _ h => h.elim)
      dsimp only at eP
      rw [← bind_assoc, eP, ok_bind]
      have hP : ∀ i j, i < d.cells → j < d.cells → P.m i j = slabVal d e3 h i j := by
        intro i j hi hj
        refine (hvP (i, j)).1 ?_
        by_cases hij : i ≤ j
        · exact Or.inl ⟨i, hi, j, hij, by omega, rfl⟩
        · exact Or.inr ⟨j, hj, i, by omega, by omega, rfl⟩
      have f3 : Fills (ArrGood (D3 d)) (fun A : Ten3 => A.v) (fun _ => False) (fun G => loop (fun i G => loop (fun j (G : Ten3) => do
          let p ← P.get i j
          G.set (i, j, h) p) d.cells G) d.cells G)
          (fun x => ∃ i, i < d.cells ∧ ∃ j, j < d.cells ∧ x = (i, j, h)) (fun x => slabVal d e3 x.2.2 x.1 x.2.1) := by
        refine Fills.loop (fun i hi => Fills.loop (S := fun j x => x = (i, j, h)) (fun j hj => ?_))
        refine (Fills.arrSet (p := (i, j, h)) (a := slabVal d e3 h i j) ⟨hi, hj, hh⟩ rfl).congr ?_ (fun _ => Iff.rfl)
        intro G _ _
        rw [Mat.get_ok (x := P) (by rw [gP'.1]; omega) (by rw [gP'.2]; omega), ok_bind, hP i j hi hj]
      obtain ⟨G, eG, dG, hvG⟩ := f3 G0 gD (fun _ h => h.elim)
      dsimp only at eG
      rw [eG, ok_bind]
      refine ⟨(P, G), rfl, gP', dG, ?_⟩
      intro h' i j hh' hi hj
      dsimp only
      by_cases hE : h' = h
      · subst hE
        exact (hvG (i, j, h')).1 ⟨i, hi, j, hj, rfl⟩
      · refine ((hvG (i, j, h')).2 ?_).trans (gv h' i j (by omega) hi hj)
        rintro ⟨i', _, j', _, hx⟩
        simp only [Prod.mk.injEq] at hx
        omega)
  obtain ⟨S, eS, -, dS, hvS⟩ := key
  rw [eS, ok_bind]
  exact ⟨S.2, rfl, dS, hvS⟩

end

end Verif.CPM
